import Verif.Model.Torus
import Verif.Lemmas.Surface
import Verif.Lemmas.Angle
import Verif.Props.HitRecord
import Verif.Props.Aabb
import Mathlib.LinearAlgebra.Matrix.DotProduct
import Mathlib.Analysis.Calculus.Deriv.Pow
import Mathlib.Analysis.SpecialFunctions.Trigonometric.Angle
import Mathlib.Tactic.LinearCombination

/-! # C55-C58: the torus -/

namespace DRT
open Scalar Fl Matrix

variable {F : Fmt}

/-- The point of the torus at the angles `a` (around the axis) and `b` (around the tube). -/
noncomputable def torusAt (c : Fin 3 → ℝ) (R r a b : ℝ) : Fin 3 → ℝ :=
  ![c 0 + (R + r * Real.cos b) * Real.cos a, c 1 + (R + r * Real.cos b) * Real.sin a, c 2 + r * Real.sin b]

/-- The torus as a set of points: a circle of radius `r` in a plane through the axis, whose centre is at distance `R`
from the axis, turned around the axis through `c` parallel to z. -/
def torusSet (c : Fin 3 → ℝ) (R r : ℝ) : Set (Fin 3 → ℝ) := {p | ∃ a b : ℝ, p = torusAt c R r a b}

/-- The implicit function of the torus. -/
def torusF (c : Fin 3 → ℝ) (R r : ℝ) (p : Fin 3 → ℝ) : ℝ :=
  ((p 0 - c 0) ^ 2 + (p 1 - c 1) ^ 2 + (p 2 - c 2) ^ 2 + R ^ 2 - r ^ 2) ^ 2 - 4 * R ^ 2 * ((p 0 - c 0) ^ 2 + (p 1 - c 1) ^ 2)

theorem exists_angle (r a b : ℝ) (h : a ^ 2 + b ^ 2 = r ^ 2) : ∃ v, r * Real.cos v = a ∧ r * Real.sin v = b := by
  obtain ⟨h1, h2⟩ := atan2_polar a b
  rw [h, Real.sqrt_sq_eq_abs] at h1 h2
  rcases abs_cases r with ⟨e, -⟩ | ⟨e, -⟩
  · rw [e] at h1 h2; exact ⟨_, h1, h2⟩
  · rw [e] at h1 h2
    exact ⟨realAtan2 b a + Real.pi, by rw [Real.cos_add_pi]; linarith, by rw [Real.sin_add_pi]; linarith⟩

/-- The set of points is the zero set of the implicit function, for all radii. -/
theorem torusF_eq_zero (c : Fin 3 → ℝ) (R r : ℝ) (p : Fin 3 → ℝ) : torusF c R r p = 0 ↔ p ∈ torusSet c R r := by
  constructor
  · intro h
    obtain ⟨q, hq⟩ : ∃ q, q = Real.sqrt ((p 0 - c 0) ^ 2 + (p 1 - c 1) ^ 2) := ⟨_, rfl⟩
    have hq2 : q ^ 2 = (p 0 - c 0) ^ 2 + (p 1 - c 1) ^ 2 := by rw [hq, Real.sq_sqrt (by positivity)]
    obtain ⟨a, ha1, ha2⟩ := exists_angle q (p 0 - c 0) (p 1 - c 1) hq2.symm
    have hf : ((q - R) ^ 2 + (p 2 - c 2) ^ 2 - r ^ 2) * ((q + R) ^ 2 + (p 2 - c 2) ^ 2 - r ^ 2) = 0 := by
      have : torusF c R r p = (q ^ 2 + (p 2 - c 2) ^ 2 + R ^ 2 - r ^ 2) ^ 2 - 4 * R ^ 2 * q ^ 2 := by rw [hq2]; rfl
      rw [h] at this; linear_combination -this
    rcases mul_eq_zero.mp hf with h1 | h1
    · obtain ⟨b, hb1, hb2⟩ := exists_angle r (q - R) (p 2 - c 2) (by linarith)
      refine ⟨a, b, ?_⟩
      unfold torusAt
      rw [hb1, hb2, add_sub_cancel, ha1, ha2]
      funext i
      match i with
      | 0 => simp
      | 1 => simp
      | 2 => simp
    · obtain ⟨b, hb1, hb2⟩ := exists_angle r (-(q + R)) (p 2 - c 2) (by linarith)
      refine ⟨a + Real.pi, b, ?_⟩
      unfold torusAt
      rw [hb1, hb2, Real.cos_add_pi, Real.sin_add_pi,
        show (R + -(q + R)) * -Real.cos a = q * Real.cos a by ring,
        show (R + -(q + R)) * -Real.sin a = q * Real.sin a by ring, ha1, ha2]
      funext i
      match i with
      | 0 => simp
      | 1 => simp
      | 2 => simp
  · rintro ⟨a, b, rfl⟩
    have t1 := Real.sin_sq_add_cos_sq a
    have t2 := Real.sin_sq_add_cos_sq b
    unfold torusF torusAt
    simp only [Fin.isValue, cons_val_zero, cons_val_one, cons_val, add_sub_cancel_left]
    have e1 : ((R + r * Real.cos b) * Real.cos a) ^ 2 + ((R + r * Real.cos b) * Real.sin a) ^ 2 = (R + r * Real.cos b) ^ 2 := by
      linear_combination (R + r * Real.cos b) ^ 2 * t1
    have e2 : (r * Real.sin b) ^ 2 = r ^ 2 - r ^ 2 * Real.cos b ^ 2 := by linear_combination r ^ 2 * t2
    rw [e1, e2]; ring

/-- The coefficients of the implicit function along a ray, `oc` being the origin seen from the centre. -/
def torusC (R r : ℝ) (oc d : Fin 3 → ℝ) : Fin 5 → ℝ :=
  ![(oc ⬝ᵥ oc - (r ^ 2 + R ^ 2)) ^ 2 - 4 * R ^ 2 * (r ^ 2 - oc 2 ^ 2),
    4 * (oc ⬝ᵥ oc - (r ^ 2 + R ^ 2)) * (oc ⬝ᵥ d) + 8 * R ^ 2 * oc 2 * d 2,
    2 * (d ⬝ᵥ d) * (oc ⬝ᵥ oc - (r ^ 2 + R ^ 2)) + 4 * (oc ⬝ᵥ d) ^ 2 + 4 * R ^ 2 * d 2 ^ 2,
    4 * (d ⬝ᵥ d) * (oc ⬝ᵥ d), (d ⬝ᵥ d) ^ 2]

theorem torusF_ray (c : Fin 3 → ℝ) (R r : ℝ) (o d : Fin 3 → ℝ) (t : ℝ) : torusF c R r (o + t • d) =
    torusC R r (o - c) d 4 * t ^ 4 + torusC R r (o - c) d 3 * t ^ 3 + torusC R r (o - c) d 2 * t ^ 2 +
      torusC R r (o - c) d 1 * t + torusC R r (o - c) d 0 := by
  unfold torusF torusC
  simp only [Fin.isValue, cons_val_zero, cons_val_one, cons_val, dotProduct, Fin.sum_univ_three, Pi.add_apply,
    Pi.sub_apply, Pi.smul_apply, smul_eq_mul]
  ring

namespace Torus

/-- The model object with real members. -/
def ofReal (c : Fin 3 → ℝ) (R r : ℝ) : Torus (Fl F) := ⟨cv c, fin R, fin r⟩

theorem coeffs_fin [F.Exact] (c : Fin 3 → ℝ) (R r : ℝ) (o d : Fin 3 → ℝ) :
    (ofReal c R r : Torus (Fl F)).coeffs ⟨cv o, cv d⟩ = cv (torusC R r (o - c) d) := by
  unfold coeffs ofReal torusC
  simp only [fl, Nat.cast_ofNat]
  funext i
  match i with
  | 0 | 1 | 2 | 3 | 4 =>
    simp only [Fin.isValue, cv_apply, cons_val_zero, cons_val_one, cons_val, fin_inj, dotProduct, Fin.sum_univ_three, Pi.sub_apply]
    try ring

theorem residual_fin [F.Exact] (c : Fin 3 → ℝ) (R r : ℝ) (p : Fin 3 → ℝ) :
    (ofReal c R r : Torus (Fl F)).residual (cv p) = fin (torusF c R r p) := by
  unfold residual ofReal torusF
  simp only [fl, Nat.cast_ofNat, fin_inj]
  ring

theorem finish_eq {A : Type} [Scalar A] (s : Torus A) (r : Ray A) (rec : HitRecord A) :
    s.finish r rec = if Scalar.gt (Scalar.abs (s.residual (s.refine (r.at rec.t) r.dir)))
      (s.expectedResidual (s.refine (r.at rec.t) r.dir)) then (false, s.complete r rec) else (true, s.complete r rec) := rfl

theorem finish_snd {A : Type} [Scalar A] (s : Torus A) (r : Ray A) (rec : HitRecord A) :
    (s.finish r rec).2 = s.complete r rec := by
  rw [finish_eq]; split_ifs <;> rfl

end Torus

/-! ## C55 -/

/-- C55: along every ray the residual is the quartic whose coefficients `hit` passes to the root finder, and a reported
parameter is one of the values the root finder returns for it. -/
theorem C55_quartic [F.Exact] (c : Fin 3 → ℝ) (R r : ℝ) (o d : Fin 3 → ℝ) :
    ∃ k : Fin 5 → ℝ,
      (∀ t : ℝ, (Torus.ofReal c R r : Torus (Fl F)).residual ((Ray.mk (cv o) (cv d) : Ray (Fl F)).at (fin t)) =
        fin (k 4 * t ^ 4 + k 3 * t ^ 3 + k 2 * t ^ 2 + k 1 * t + k 0)) ∧
      ∀ tmin tmax rec, ((Torus.ofReal c R r : Torus (Fl F)).hit ⟨cv o, cv d⟩ tmin tmax rec).1 = true →
        ((Torus.ofReal c R r).hit ⟨cv o, cv d⟩ tmin tmax rec).2.t ∈
          quarticRoots (fin (k 4) : Fl F) (fin (k 3)) (fin (k 2)) (fin (k 1)) (fin (k 0)) := by
  refine ⟨torusC R r (o - c) d, fun t => ?_, ?_⟩
  · rw [ray_at_cv, Torus.residual_fin, torusF_ray]
  · intro tmin tmax rec
    unfold Torus.hit
    rw [Torus.coeffs_fin]
    simp only [cv_apply]
    split_ifs
    · simp
    · split
      · simp
      · next t ht =>
        intro _
        rw [Torus.finish_snd]
        exact List.mem_of_find?_eq_some ht

/-- C55: the zeros of the residual are exactly the points of the surface of revolution, for all radii. -/
theorem C55_zero_set [F.Exact] (c : Fin 3 → ℝ) (R r : ℝ) (p : Fin 3 → ℝ) :
    (Torus.ofReal c R r : Torus (Fl F)).residual (cv p) = fin 0 ↔ p ∈ torusSet c R r := by
  rw [Torus.residual_fin, fin_inj, torusF_eq_zero]

/-! ## C56, C57 -/

/-- The torus lies in the box around it. -/
theorem torus_bounds {c : Fin 3 → ℝ} {R r : ℝ} (hR : 0 ≤ R) (hr : 0 ≤ r) {p : Fin 3 → ℝ} (hp : p ∈ torusSet c R r) :
    InBox (c - ![R + r, R + r, r]) (c + ![R + r, R + r, r]) p := by
  obtain ⟨a, b, rfl⟩ := hp
  have hb := abs_le.mp (Real.abs_cos_le_one b)
  have hs := abs_le.mp (Real.abs_sin_le_one b)
  have h1 : |R + r * Real.cos b| ≤ R + r := by rw [abs_le]; constructor <;> nlinarith
  have bnd : ∀ x : ℝ, |x| ≤ 1 → |(R + r * Real.cos b) * x| ≤ R + r := by
    intro x hx
    rw [abs_mul]
    calc _ ≤ (R + r) * 1 := mul_le_mul h1 hx (abs_nonneg _) (by linarith)
      _ = R + r := mul_one _
  have b0 := abs_le.mp (bnd _ (Real.abs_cos_le_one a))
  have b1 := abs_le.mp (bnd _ (Real.abs_sin_le_one a))
  intro i
  match i with
  | 0 => exact ⟨by show c 0 - (R + r) ≤ c 0 + _; linarith, by show c 0 + _ ≤ c 0 + (R + r); linarith⟩
  | 1 => exact ⟨by show c 1 - (R + r) ≤ c 1 + _; linarith, by show c 1 + _ ≤ c 1 + (R + r); linarith⟩
  | 2 => exact ⟨by show c 2 - r ≤ c 2 + r * Real.sin b; nlinarith, by show c 2 + r * Real.sin b ≤ c 2 + r; nlinarith⟩

theorem clamp_fin_of_mem {x lo hi : ℝ} (h1 : lo ≤ x) (h2 : x ≤ hi) : Scalar.clamp (fin x : Fl F) (fin lo) (fin hi) = fin x := by
  unfold Scalar.clamp
  rw [lt_fin, lt_fin, if_neg (by simpa using h1), if_neg (by simpa using h2)]

namespace Torus

/-- On the torus the refinement does nothing. -/
theorem refine_on [F.Exact] {c : Fin 3 → ℝ} {R r : ℝ} (hR : 0 ≤ R) (hr : 0 ≤ r) {p : Fin 3 → ℝ} (hp : p ∈ torusSet c R r)
    (d : Fin 3 → ℝ) : (ofReal c R r : Torus (Fl F)).refine (cv p) (cv d) = cv p := by
  have hf := (torusF_eq_zero c R r p).mpr hp
  have hn : (ofReal c R r : Torus (Fl F)).newtonStep (cv p) (cv d) = cv p := by
    unfold newtonStep ofReal
    simp only [fl, Nat.cast_ofNat, Scalar.ne, cv_vec3]
    split_ifs with h
    · rw [show ((p 0 - c 0) * (p 0 - c 0) + (p 1 - c 1) * (p 1 - c 1) + (p 2 - c 2) * (p 2 - c 2) + R * R - r * r) *
          ((p 0 - c 0) * (p 0 - c 0) + (p 1 - c 1) * (p 1 - c 1) + (p 2 - c 2) * (p 2 - c 2) + R * R - r * r) -
          4 * R * R * ((p 0 - c 0) * (p 0 - c 0) + (p 1 - c 1) * (p 1 - c 1)) = 0 by rw [← hf]; unfold torusF; ring]
      rw [div_fin _ (by simpa using h)]
      funext i
      match i with
      | 0 | 1 | 2 => simp [cv_apply]
    · rfl
  have hb := torus_bounds hR hr hp
  unfold refine clampToBox
  rw [hn]
  have b0 : c 0 - (R + r) ≤ p 0 ∧ p 0 ≤ c 0 + (R + r) := hb 0
  have b1 : c 1 - (R + r) ≤ p 1 ∧ p 1 ≤ c 1 + (R + r) := hb 1
  have b2 : c 2 - r ≤ p 2 ∧ p 2 ≤ c 2 + r := hb 2
  unfold ofReal
  simp only [cv_apply, add_fin, sub_fin]
  rw [clamp_fin_of_mem b0.1 b0.2, clamp_fin_of_mem b1.1 b1.2, clamp_fin_of_mem b2.1 b2.2]
  funext i
  match i with
  | 0 | 1 | 2 => rfl

/-- On the torus the test of the residual passes. -/
theorem finish_true [F.Exact] {c : Fin 3 → ℝ} {R r : ℝ} (hR : 0 ≤ R) (hr : 0 ≤ r) {o d : Fin 3 → ℝ} {t : ℝ}
    (hp : o + t • d ∈ torusSet c R r) (rec : HitRecord (Fl F)) (ht : rec.t = fin t) :
    ((ofReal c R r).finish ⟨cv o, cv d⟩ rec).1 = true ∧ ((ofReal c R r).finish ⟨cv o, cv d⟩ rec).2.t = fin t ∧
      ((ofReal c R r).finish ⟨cv o, cv d⟩ rec).2.p = cv (o + t • d) := by
  have hp' : ((ofReal c R r).finish ⟨cv o, cv d⟩ rec).2.p = cv (o + t • d) := by
    rw [finish_snd]
    show (ofReal c R r).refine ((Ray.mk (cv o) (cv d) : Ray (Fl F)).at rec.t) (cv d) = _
    rw [ht, ray_at_cv, refine_on hR hr hp]
  refine ⟨?_, by rw [finish_snd]; exact ht, hp'⟩
  rw [finish_eq]
  have he := Fmt.Exact.eps_pos (F := F)
  have hk : ∃ k, (ofReal c R r : Torus (Fl F)).expectedResidual (cv (o + t • d)) = fin k ∧ 0 ≤ k := by
    unfold expectedResidual ofReal
    simp only [fl, Nat.cast_ofNat, fin_inj]
    exact ⟨_, rfl, by positivity⟩
  obtain ⟨k, hk, hk0⟩ := hk
  dsimp only
  rw [ht, ray_at_cv, refine_on hR hr hp, residual_fin, (torusF_eq_zero c R r _).mpr hp, hk, abs_fin, abs_zero, Scalar.gt, lt_fin,
    if_neg (by simpa using hk0)]

end Torus

/-- C56, any rounding: a hit has its parameter in the range, and the recorded point is the point of the ray after the
refinement; the residual there has passed the test. -/
theorem C56_in_range (s : Torus (Fl F)) (r : Ray (Fl F)) (tmin tmax : Fl F) (rec rec' : HitRecord (Fl F))
    (h : s.hit r tmin tmax rec = (true, rec')) :
    Scalar.le tmin rec'.t = true ∧ Scalar.le rec'.t tmax = true ∧ rec'.p = s.refine (r.at rec'.t) r.dir ∧
      Scalar.gt (Scalar.abs (s.residual rec'.p)) (s.expectedResidual rec'.p) = false := by
  unfold Torus.hit at h
  dsimp only at h
  split_ifs at h
  · exact absurd (congrArg Prod.fst h) Bool.false_ne_true
  · split at h
    · exact absurd (congrArg Prod.fst h) Bool.false_ne_true
    · next t ht =>
      have hr := List.find?_some ht
      have h2 := Torus.finish_snd s r { rec with t := t }
      rw [h] at h2
      dsimp only at h2
      rw [Torus.finish_eq] at h
      rw [h2]
      simp only [Bool.and_eq_true] at hr
      refine ⟨hr.1, hr.2, rfl, ?_⟩
      by_contra hc
      have hc' : Scalar.gt (Scalar.abs (s.residual (s.refine (r.at t) r.dir))) (s.expectedResidual (s.refine (r.at t) r.dir)) = true :=
        Bool.eq_true_of_not_eq_false hc
      dsimp only at h
      rw [if_pos hc'] at h
      exact absurd (congrArg Prod.fst h) Bool.false_ne_true

/-- C56: when the coefficients of the quartic avoid the thresholds of the root finder, a reported hit is in the range,
on the ray and on the torus. Missing: coefficients in the windows (`QuarticClear` fails), see also `C56_ideal`. -/
theorem C56_on_torus_partial [F.Exact] (c : Fin 3 → ℝ) (R r : ℝ) (hR : 0 ≤ R) (hr : 0 ≤ r) (o d : Fin 3 → ℝ)
    (hq : QuarticClear F.tiny (torusC R r (o - c) d 4) (torusC R r (o - c) d 3) (torusC R r (o - c) d 2)
      (torusC R r (o - c) d 1) (torusC R r (o - c) d 0)) (tmin tmax : Fl F) (rec rec' : HitRecord (Fl F))
    (h : (Torus.ofReal c R r).hit ⟨cv o, cv d⟩ tmin tmax rec = (true, rec')) :
    ∃ t : ℝ, rec'.t = fin t ∧ InRange (tmin, tmax) t ∧ rec'.p = cv (o + t • d) ∧ o + t • d ∈ torusSet c R r := by
  obtain ⟨l, hl, -, hroot, -⟩ := quarticRoots_spec (F := F) _ _ _ _ _ hq
  unfold Torus.hit at h
  rw [Torus.coeffs_fin] at h
  simp only [cv_apply, hl] at h
  split_ifs at h
  · exact absurd (congrArg Prod.fst h) Bool.false_ne_true
  · split at h
    · exact absurd (congrArg Prod.fst h) Bool.false_ne_true
    · next t ht =>
      have hr' := List.find?_some ht
      obtain ⟨z, hz, rfl⟩ := List.mem_map.mp (List.mem_of_find?_eq_some ht)
      have hS : o + z • d ∈ torusSet c R r := (torusF_eq_zero c R r _).mp (by rw [torusF_ray]; exact hroot z hz)
      obtain ⟨-, h2, h3⟩ := Torus.finish_true hR hr hS { rec with t := fin z } rfl
      rw [h] at h2 h3
      simp only [Bool.and_eq_true] at hr'
      exact ⟨z, h2, hr', h3, hS⟩

/-- C56 when the threshold of the root finder is zero: all tori and rays with nonzero direction. -/
theorem C56_ideal [F.Exact] (ht : F.tiny = 0) (c : Fin 3 → ℝ) (R r : ℝ) (hR : 0 ≤ R) (hr : 0 ≤ r) (o d : Fin 3 → ℝ) (hd : d ≠ 0)
    (tmin tmax : Fl F) (rec rec' : HitRecord (Fl F))
    (h : (Torus.ofReal c R r).hit ⟨cv o, cv d⟩ tmin tmax rec = (true, rec')) :
    ∃ t : ℝ, rec'.t = fin t ∧ InRange (tmin, tmax) t ∧ rec'.p = cv (o + t • d) ∧ o + t • d ∈ torusSet c R r := by
  refine C56_on_torus_partial c R r hR hr o d ?_ tmin tmax rec rec' h
  rw [ht]
  apply QuarticClear.of_zero
  show (d ⬝ᵥ d) ^ 2 ≠ 0
  exact pow_ne_zero 2 (fun h => hd (dotProduct_self_eq_zero.1 h))

theorem find?_sorted {l : List ℝ} (hs : l.Pairwise (· ≤ ·)) {P : Fl F → Bool} :
    (∃ z ∈ l, P (fin z) = true ∧ (l.map fin).find? P = some (fin z) ∧ ∀ w ∈ l, P (fin w) = true → z ≤ w) ∨
    ((l.map fin).find? P = none ∧ ∀ w ∈ l, P (fin w) = false) := by
  induction l with
  | nil => right; simp
  | cons x xs ih =>
    rw [List.pairwise_cons] at hs
    by_cases hx : P (fin x) = true
    · left
      refine ⟨x, by simp, hx, by simp [List.find?_cons, hx], ?_⟩
      intro w hw _
      rcases List.mem_cons.mp hw with rfl | hw
      · exact le_refl _
      · exact hs.1 w hw
    · have hx' : P (fin x) = false := by simpa using hx
      rcases ih hs.2 with ⟨z, hz, h1, h2, h3⟩ | ⟨h1, h2⟩
      · left
        refine ⟨z, by simp [hz], h1, by simp only [List.map_cons, List.find?_cons, hx', h2], ?_⟩
        intro w hw hw'
        rcases List.mem_cons.mp hw with rfl | hw
        · exact absurd hw' hx
        · exact h3 w hw hw'
      · right
        refine ⟨by simp only [List.map_cons, List.find?_cons, hx', h1], ?_⟩
        intro w hw
        rcases List.mem_cons.mp hw with rfl | hw
        · exact hx'
        · exact h2 w hw

/-- `hit` finds the nearest point of the torus on a ray that is nowhere tangent to it, if the range lies after the origin, or if the origin is
not on the torus and the quartic has a negative coefficient. -/
theorem Torus.nearest [F.Exact] (c : Fin 3 → ℝ) (R r : ℝ) (hR : 0 ≤ R) (hr : 0 ≤ r) (o d : Fin 3 → ℝ)
    (hq : QuarticClear F.tiny (torusC R r (o - c) d 4) (torusC R r (o - c) d 3) (torusC R r (o - c) d 2)
      (torusC R r (o - c) d 1) (torusC R r (o - c) d 0)) (tmin : Fl F) (hpos : Scalar.lt (fin 0) tmin = true ∨
      torusC R r (o - c) d 0 ≠ 0 ∧ ∃ i : Fin 4, torusC R r (o - c) d i.castSucc < 0)
    (htr : ∀ z, InRange (tmin, (pinf : Fl F)) z → o + z • d ∈ torusSet c R r → deriv (fun t => torusF c R r (o + t • d)) z ≠ 0) :
    FindsNearest (torusSet c R r) o d tmin ((Torus.ofReal c R r).hit ⟨cv o, cv d⟩ tmin) := by
  obtain ⟨l, hl, ⟨l', hsort, hll⟩, hroot, hcomp⟩ := quarticRoots_spec (F := F) _ _ _ _ _ hq
  intro tmax rec hm
  have hS : ∀ z, o + z • d ∈ torusSet c R r ↔ torusC R r (o - c) d 4 * z ^ 4 + torusC R r (o - c) d 3 * z ^ 3 +
      torusC R r (o - c) d 2 * z ^ 2 + torusC R r (o - c) d 1 * z + torusC R r (o - c) d 0 = 0 := by
    intro z; rw [← torusF_eq_zero, torusF_ray]
  have hz0 : ∀ z, InRange (tmin, tmax) z → 0 < z ∨ torusC R r (o - c) d 0 ≠ 0 ∧ ∃ i : Fin 4, torusC R r (o - c) d i.castSucc < 0 := by
    intro z hz
    refine hpos.imp_left fun hpos => ?_
    have := Fl.lt_of_lt_of_le hpos hz.1
    rw [lt_fin] at this; simpa using this
  -- every point in range is listed
  have hall : ∀ z, InRange (tmin, tmax) z → o + z • d ∈ torusSet c R r → z ∈ l := by
    intro z hz hzS
    rcases hcomp z ((hS z).mp hzS) with h1 | ⟨-, x, -, w, -, -, hf⟩
    · exact h1
    · exfalso
      refine htr z ⟨hz.1, by simp⟩ hzS ?_
      have : (fun t => torusF c R r (o + t • d)) = fun t => (torusC R r (o - c) d 4 * (t - x) * (t - w)) * ((t - z) * (t - z)) := by
        funext t; rw [torusF_ray, hf, sq]
      rw [this]
      have h2 : HasDerivAt (fun t : ℝ => (t - z) * (t - z)) 0 z :=
        (((hasDerivAt_id z).sub_const z).mul ((hasDerivAt_id z).sub_const z)).congr_deriv (by simp)
      have h1 : DifferentiableAt ℝ (fun t : ℝ => torusC R r (o - c) d 4 * (t - x) * (t - w)) z := by fun_prop
      exact (h1.hasDerivAt.mul h2).deriv.trans (by simp)
  have hpred : ∀ z : ℝ, (Scalar.ge (fin z) tmin && Scalar.le (fin z) tmax) = true ↔ InRange (tmin, tmax) z := by
    intro z; rw [Bool.and_eq_true]; rfl
  have hin' : ∀ z, InRange (tmin, tmax) z → z ∈ l → z ∈ l' := by
    intro z hz hzl
    rcases hll with rfl | ⟨h0, rfl⟩
    · exact hzl
    · rcases List.mem_append.mp hzl with h | h
      · exact h
      · simp at h
        rcases hz0 z hz with this | this
        · rw [h] at this; exact absurd this (lt_irrefl 0)
        · exact absurd h0 this.1
  have hl' : ∀ z ∈ l', z ∈ l := by
    intro z hz
    rcases hll with rfl | ⟨-, rfl⟩
    · exact hz
    · exact List.mem_append_left _ hz
  have hzero : torusC R r (o - c) d 0 = 0 → (Scalar.ge (fin 0 : Fl F) tmin && Scalar.le (fin 0 : Fl F) tmax) = false := by
    intro h0
    rw [← Bool.not_eq_true, hpred]; intro h
    exact (hz0 0 h).elim (fun h => lt_irrefl 0 h) fun h => h.1 h0
  have hfind : (l.map fin).find? (fun x : Fl F => Scalar.ge x tmin && Scalar.le x tmax) =
      (l'.map fin).find? (fun x : Fl F => Scalar.ge x tmin && Scalar.le x tmax) := by
    rcases hll with rfl | ⟨h0, rfl⟩
    · rfl
    · rw [List.map_append, List.find?_append, List.map_singleton, List.find?_singleton, hzero h0]; simp
  unfold Torus.hit
  rw [Torus.coeffs_fin]
  simp only [cv_apply, hl, hfind]
  by_cases hsg : Torus.signChanges (cv (torusC R r (o - c) d) : Vec (Fl F) 5) = true
  · rw [hsg]
    simp only [Bool.not_true, Bool.false_eq_true, if_false]
    rcases find?_sorted (F := F) hsort (P := fun x : Fl F => Scalar.ge x tmin && Scalar.le x tmax) with
      ⟨z, hz, hP, hfz, hmin⟩ | ⟨hfz, hno⟩
    · simp only [hfz]
      have hzr := (hpred z).mp hP
      have hzS := (hS z).mpr (hroot z (hl' z hz))
      obtain ⟨g1, g2, g3⟩ := Torus.finish_true hR hr hzS { rec with t := fin z } rfl
      refine ⟨⟨fun _ => ⟨z, hzr, hzS⟩, fun _ => g1⟩, fun _ => ⟨z, g2, g3, hzr, hzS, fun w hw hwS => ?_⟩⟩
      exact hmin w (hin' w hw (hall w hw hwS)) ((hpred w).mpr hw)
    · simp only [hfz]
      refine ⟨⟨by simp, ?_⟩, by simp⟩
      rintro ⟨w, hw, hwS⟩
      have := hno w (hin' w hw (hall w hw hwS))
      rw [(hpred w).mpr hw] at this; cases this
  · have hsg' : Torus.signChanges (cv (torusC R r (o - c) d) : Vec (Fl F) 5) = false := by simpa using hsg
    rw [hsg']
    simp only [Bool.not_false, if_true]
    refine ⟨⟨by simp, ?_⟩, by simp⟩
    rintro ⟨w, hw, hwS⟩
    have e := (hS w).mp hwS
    unfold Torus.signChanges at hsg'
    simp only [cv_apply, ofNat_zero, lt_fin, Bool.or_eq_false_iff, decide_eq_false_iff_not, not_lt] at hsg'
    obtain ⟨⟨⟨g3, g2⟩, g1⟩, g0⟩ := hsg'
    have hw0 : 0 < w := (hz0 w hw).elim id (by
      rintro ⟨-, i, hi⟩
      exfalso
      fin_cases i
      · exact absurd hi (not_lt.mpr g0)
      · exact absurd hi (not_lt.mpr g1)
      · exact absurd hi (not_lt.mpr g2)
      · exact absurd hi (not_lt.mpr g3))
    have g4 : 0 < torusC R r (o - c) d 4 := by
      have := hq.lead
      have h0 := Fmt.Exact.tiny_nonneg (F := F)
      have h1 : 0 ≤ torusC R r (o - c) d 4 := sq_nonneg _
      rw [abs_of_nonneg h1] at this; linarith
    have : 0 < torusC R r (o - c) d 4 * w ^ 4 + torusC R r (o - c) d 3 * w ^ 3 +
      torusC R r (o - c) d 2 * w ^ 2 + torusC R r (o - c) d 1 * w + torusC R r (o - c) d 0 := by positivity
    linarith

/-- C57 for ranges after the origin and rays nowhere tangent to the torus in front of the start: `hit` is exact. It is
true iff the ray meets the torus in the range, with the smallest parameter and the point there.
Missing: ranges reaching parameters `≤ 0`, see `C57_negative_false`; tangent rays, see `C57_tangent_false`; coefficients
in the threshold windows of the root finder. -/
theorem C57_nearest_partial [F.Exact] (c : Fin 3 → ℝ) (R r : ℝ) (hR : 0 ≤ R) (hr : 0 ≤ r) (o d : Fin 3 → ℝ)
    (hq : QuarticClear F.tiny (torusC R r (o - c) d 4) (torusC R r (o - c) d 3) (torusC R r (o - c) d 2)
      (torusC R r (o - c) d 1) (torusC R r (o - c) d 0)) (tmin : Fl F) (hpos : Scalar.lt (fin 0) tmin = true)
    (htr : ∀ z, InRange (tmin, (pinf : Fl F)) z → o + z • d ∈ torusSet c R r → deriv (fun t => torusF c R r (o + t • d)) z ≠ 0) :
    FindsNearest (torusSet c R r) o d tmin ((Torus.ofReal c R r).hit ⟨cv o, cv d⟩ tmin) :=
  Torus.nearest c R r hR hr o d hq tmin (Or.inl hpos) htr

/-- C57 when the threshold of the root finder is zero. -/
theorem C57_ideal_partial [F.Exact] (ht : F.tiny = 0) (c : Fin 3 → ℝ) (R r : ℝ) (hR : 0 ≤ R) (hr : 0 ≤ r) (o d : Fin 3 → ℝ) (hd : d ≠ 0)
    (tmin : Fl F) (hpos : Scalar.lt (fin 0) tmin = true)
    (htr : ∀ z, InRange (tmin, (pinf : Fl F)) z → o + z • d ∈ torusSet c R r → deriv (fun t => torusF c R r (o + t • d)) z ≠ 0) :
    FindsNearest (torusSet c R r) o d tmin ((Torus.ofReal c R r).hit ⟨cv o, cv d⟩ tmin) := by
  refine C57_nearest_partial c R r hR hr o d ?_ tmin hpos htr
  rw [ht]
  apply QuarticClear.of_zero
  show (d ⬝ᵥ d) ^ 2 ≠ 0
  exact pow_ne_zero 2 (fun h => hd (dotProduct_self_eq_zero.1 h))

/-- A ray along x from `(-10,0,1/2)` crosses the torus with radii 2 and 1 transversally. -/
theorem Torus.hit_case : ∃ rec', (Torus.ofReal (F := exact0) 0 2 1).hit ⟨cv ![-10, 0, 0], cv ![1, 0, 0]⟩ (fin 1) pinf
      (HitRecord.default Vec.nans Vec.nans true) = (true, rec') ∧ rec'.t = fin 7 := by
  have hf : ∀ t : ℝ, torusF 0 2 1 (![-10, 0, 0] + t • ![1, 0, 0]) = (t - 7) * (t - 9) * (t - 11) * (t - 13) := by
    intro t; unfold torusF; simp; ring
  have hS : ∀ z : ℝ, (![-10, 0, 0] + z • ![1, 0, 0] : Fin 3 → ℝ) ∈ torusSet 0 2 1 ↔ (z = 7 ∨ z = 9 ∨ z = 11 ∨ z = 13) := by
    intro z
    rw [← torusF_eq_zero, hf, mul_eq_zero, mul_eq_zero, mul_eq_zero, sub_eq_zero, sub_eq_zero, sub_eq_zero, sub_eq_zero,
      or_assoc, or_assoc]
  have hd : ∀ z : ℝ, deriv (fun t => torusF 0 2 1 (![-10, 0, 0] + t • ![1, 0, 0])) z =
      (z - 9) * (z - 11) * (z - 13) + (z - 7) * (z - 11) * (z - 13) + (z - 7) * (z - 9) * (z - 13) + (z - 7) * (z - 9) * (z - 11) := by
    intro z
    simp only [hf]
    have h : ∀ a : ℝ, HasDerivAt (fun t : ℝ => t - a) 1 z := fun a => (hasDerivAt_id z).sub_const a
    exact ((((h 7).mul (h 9)).mul (h 11)).mul (h 13)).deriv.trans (by simp only [Pi.mul_apply]; ring)
  have key := C57_ideal_partial (F := exact0) rfl 0 2 1 (by norm_num) (by norm_num) ![-10, 0, 0] ![1, 0, 0]
    (fun h => by simpa using congrFun h 0) (fin 1) (by rw [lt_fin]; norm_num)
    (by intro z _ hz; rw [hd]; rcases (hS z).mp hz with rfl | rfl | rfl | rfl <;> norm_num)
    pinf (HitRecord.default Vec.nans Vec.nans true) rfl
  have h1 := key.1.mpr ⟨7, ⟨by rw [le_fin]; norm_num, by simp⟩, (hS 7).mpr (Or.inl rfl)⟩
  obtain ⟨z, hz, -, hr, hzS, hm⟩ := key.2 h1
  refine ⟨_, Prod.ext h1 rfl, ?_⟩
  have := hm 7 ⟨by rw [le_fin]; norm_num, by simp⟩ ((hS 7).mpr (Or.inl rfl))
  rw [hz, fin_inj]
  rcases (hS z).mp hzS with h | h | h | h <;> first | exact h | linarith

example : ∃ rec', (Torus.ofReal (F := exact0) 0 2 1).hit ⟨cv ![-10, 0, 0], cv ![1, 0, 0]⟩ (fin 1) pinf
    (HitRecord.default Vec.nans Vec.nans true) = (true, rec') ∧ Scalar.le (fin 1) rec'.t = true ∧ rec'.p = cv (![-10, 0, 0] + (7 : ℝ) • ![1, 0, 0]) := by
  obtain ⟨rec', h, ht⟩ := Torus.hit_case
  obtain ⟨t, h1, -, h2, -⟩ := C56_ideal (F := exact0) rfl 0 2 1 (by norm_num) (by norm_num) ![-10, 0, 0] ![1, 0, 0]
    (fun h => by simpa using congrFun h 0) _ _ _ _ h
  rw [ht, fin_inj] at h1
  exact ⟨rec', h, (C56_in_range _ _ _ _ _ _ h).1, by rw [h2, h1]⟩

/-- A point of the torus with radii 2 and 1, neither on the equator nor on top. -/
theorem torus_point : (![13/5, 0, 4/5] : Fin 3 → ℝ) ∈ torusSet 0 2 1 := by
  rw [← torusF_eq_zero]; unfold torusF; simp; norm_num

/-- C57, refuted for ranges with negative parameters: from `(5,0,0)` looking away from the torus with radii 2 and 1, the
surface is met at parameters -2, -4, -6 and -8, and in the range `[-10,-1]` nothing is reported, because the coefficients
of the quartic are all positive. -/
theorem C57_negative_false [F.Exact] (rec : HitRecord (Fl F)) :
    (![5, 0, 0] + (-2:ℝ) • ![1, 0, 0] : Fin 3 → ℝ) ∈ torusSet 0 2 1 ∧
    ((Torus.ofReal 0 2 1).hit ⟨cv ![5, 0, 0], cv ![1, 0, 0]⟩ (fin (-10)) (fin (-1)) rec).1 = false := by
  constructor
  · rw [← torusF_eq_zero]; unfold torusF; simp; norm_num
  · unfold Torus.hit
    rw [Torus.coeffs_fin]
    have : Torus.signChanges (cv (torusC 2 1 (![5, 0, 0] - 0) ![1, 0, 0]) : Vec (Fl F) 5) = false := by
      unfold Torus.signChanges torusC
      simp [cv_apply, dotProduct, Fin.sum_univ_three]
      norm_num
    dsimp only
    rw [this]; rfl

/-- The ray along x from `(-4,3,0)` and the torus with radii 4 and 1: the quartic is `t(t-4)²(t-8)`, and the root finder
returns 8 and 0. -/
theorem Torus.tangent_hit [F.Exact] (tmin tmax : Fl F) (rec : HitRecord (Fl F)) :
    (Torus.ofReal 0 4 1).hit ⟨cv ![-4, 3, 0], cv ![1, 0, 0]⟩ tmin tmax rec =
      match ([fin 8, fin 0] : List (Fl F)).find? (fun x => Scalar.ge x tmin && Scalar.le x tmax) with
      | none => (false, { rec with t := nan })
      | some t => (Torus.ofReal 0 4 1).finish ⟨cv ![-4, 3, 0], cv ![1, 0, 0]⟩ { rec with t := t } := by
  have hC : torusC 4 1 (![-4, 3, 0] - 0) ![1, 0, 0] = ![0, -128, 80, -16, 1] := by
    unfold torusC
    funext i
    match i with
    | 0 | 1 | 2 | 3 | 4 => simp [dotProduct, Fin.sum_univ_three] <;> norm_num
  have ht : F.tiny < 1 := Fmt.Exact.tiny_lt
  have h0 : 0 ≤ F.tiny := Fmt.Exact.tiny_nonneg
  have hR : cubR 1 (-16) 80 (-128) = -64 / 27 := by norm_num [cubR]
  have hQ : cubQ 1 (-16) 80 = 16 / 9 := by norm_num [cubQ]
  have hcl : CubicClear F.tiny 1 (-16) 80 (-128) := by
    refine ⟨by rw [abs_one]; exact ht, Or.inr (by norm_num; linarith), by norm_num, Or.inr ?_⟩
    rw [hR]
    have : F.tiny ^ 3 < 1 := pow_lt_one₀ h0 ht (by norm_num)
    norm_num; linarith
  obtain ⟨l, hl, -, -, hr, hc, hlen⟩ := cubicRoots_spec (F := F) 1 (-16) 80 (-128) hcl
  obtain ⟨w, hw⟩ := List.length_eq_one_iff.mp (hlen (by norm_num) (by rw [hR, hQ]; norm_num))
  have hw8 : w = 8 := by
    rw [hw] at hc
    rcases hc 8 (by norm_num) with h | ⟨-, x, hx, hne, hf⟩
    · simp at h; linarith
    · exfalso
      have e0 := hf 0
      have e1 := hf 4
      simp only [List.mem_singleton] at hx
      have : (4 - x) * 16 = 0 := by linear_combination -e1
      have : x = 4 := by linarith
      rw [this] at e0; norm_num at e0
  have hq : quarticRoots (fin 1 : Fl F) (fin (-16)) (fin 80) (fin (-128)) (fin 0) = [fin 8, fin 0] := by
    unfold quarticRoots
    rw [tiny_def, abs_fin, abs_fin, le_fin, le_fin, if_neg (by simpa using ht), if_pos (by simpa using h0), hl, hw, hw8, ofNat_zero]
    rfl
  unfold Torus.hit
  rw [Torus.coeffs_fin, hC]
  have e1 : Torus.signChanges (cv ![0, -128, 80, -16, 1] : Vec (Fl F) 5) = true := by
    unfold Torus.signChanges
    simp [cv_apply]
  dsimp only
  rw [e1]
  have e2 : quarticRoots ((cv ![0, -128, 80, -16, 1] : Vec (Fl F) 5) 4) ((cv ![0, -128, 80, -16, 1] : Vec (Fl F) 5) 3)
      ((cv ![0, -128, 80, -16, 1] : Vec (Fl F) 5) 2) ((cv ![0, -128, 80, -16, 1] : Vec (Fl F) 5) 1)
      ((cv ![0, -128, 80, -16, 1] : Vec (Fl F) 5) 0) = [fin 8, fin 0] := hq
  rw [e2, if_neg (by simp)]
  generalize List.find? _ _ = o
  cases o <;> rfl

/-- C57, refuted for tangent rays: the ray along x from `(-4,3,0)`, a point of the torus with radii 4 and 1, touches the
inner equator at parameter 4 and leaves the torus at parameter 8; the first is not reported, only the second. -/
theorem C57_tangent_false [F.Exact] (rec : HitRecord (Fl F)) :
    (![-4, 3, 0] + (4:ℝ) • ![1, 0, 0] : Fin 3 → ℝ) ∈ torusSet 0 4 1 ∧
    ((Torus.ofReal 0 4 1).hit ⟨cv ![-4, 3, 0], cv ![1, 0, 0]⟩ (fin 1) (fin 10) rec).1 = true ∧
    ((Torus.ofReal 0 4 1).hit ⟨cv ![-4, 3, 0], cv ![1, 0, 0]⟩ (fin 1) (fin 10) rec).2.t = fin 8 := by
  have hS : ∀ z : ℝ, (z = 4 ∨ z = 8) → (![-4, 3, 0] + z • ![1, 0, 0] : Fin 3 → ℝ) ∈ torusSet 0 4 1 := by
    intro z hz
    rw [← torusF_eq_zero]; unfold torusF
    rcases hz with rfl | rfl <;> simp <;> norm_num
  refine ⟨hS 4 (Or.inl rfl), ?_⟩
  have e : ([fin 8, fin 0] : List (Fl F)).find? (fun x => Scalar.ge x (fin 1) && Scalar.le x (fin 10)) = some (fin 8) := by
    rw [List.find?_cons, Scalar.ge, le_fin, le_fin]; norm_num
  rw [Torus.tangent_hit, e]
  obtain ⟨g1, g2, -⟩ := Torus.finish_true (F := F) (by norm_num) (by norm_num) (hS 8 (Or.inr rfl)) { rec with t := fin 8 } rfl
  exact ⟨g1, g2⟩

/-- C93, refuted for the torus: after a miss the parameter in the record need not be what it was; here it is not a
number. -/
theorem C93_torus_false [F.Exact] (rec : HitRecord (Fl F)) (ht : rec.t = fin 7) :
    ((Torus.ofReal 0 4 1).hit ⟨cv ![-4, 3, 0], cv ![1, 0, 0]⟩ (fin 9) (fin 10) rec).1 = false ∧
    ((Torus.ofReal 0 4 1).hit ⟨cv ![-4, 3, 0], cv ![1, 0, 0]⟩ (fin 9) (fin 10) rec).2.t = Fl.nan := by
  have e : ([fin 8, fin 0] : List (Fl F)).find? (fun x => Scalar.ge x (fin 9) && Scalar.le x (fin 10)) = none := by
    rw [List.find?_cons, List.find?_cons, Scalar.ge, Scalar.ge, le_fin, le_fin, le_fin, le_fin]; norm_num
  rw [Torus.tangent_hit, e]
  exact ⟨rfl, rfl⟩

/-! ## C58 -/

/-- Two parameters in `[0,1)` with the same angle are equal. -/
theorem turn_inj {u w : ℝ} (hu0 : 0 ≤ u) (hu1 : u < 1) (hw0 : 0 ≤ w) (hw1 : w < 1)
    (hc : Real.cos (2 * Real.pi * u) = Real.cos (2 * Real.pi * w)) (hs : Real.sin (2 * Real.pi * u) = Real.sin (2 * Real.pi * w)) :
    u = w := by
  have h := Real.Angle.cos_sin_inj hc hs
  obtain ⟨k, hk⟩ := Real.Angle.angle_eq_iff_two_pi_dvd_sub.mp h
  have hp := Real.pi_pos
  have e : u - w = k := by
    have : 2 * Real.pi * (u - w - k) = 0 := by linarith
    rcases mul_eq_zero.mp this with h | h
    · linarith
    · linarith
  have h1 : (-1 : ℝ) < k := by linarith
  have h2 : (k : ℝ) < 1 := by linarith
  have : k = 0 := by
    have h1' : -1 < k := by exact_mod_cast h1
    have h2' : k < 1 := by exact_mod_cast h2
    omega
  rw [this, Int.cast_zero] at e
  linarith

theorem Torus.eval_fin [F.Exact] (c : Fin 3 → ℝ) (R r u v : ℝ) : (Torus.ofReal c R r : Torus (Fl F)).eval (fin u) (fin v) =
    cv (torusAt c R r (2 * Real.pi * u) (2 * Real.pi * v)) := by
  unfold Torus.eval torusAt Torus.ofReal
  simp only [fl, Nat.cast_ofNat, cv_vec3]

/-- What `get_uv` computes on a ring torus. -/
theorem Torus.getUV_spec [F.Exact] (c : Fin 3 → ℝ) {R r : ℝ} (hr : 0 < r) (hR : r < R) (a b : ℝ) :
    ∃ u v : ℝ, (Torus.ofReal c R r : Torus (Fl F)).getUV (cv (torusAt c R r a b)) = (fin u, fin v) ∧
      0 ≤ u ∧ u < 1 ∧ 0 ≤ v ∧ v < 1 ∧
      Real.cos (2 * Real.pi * u) = Real.cos a ∧ Real.sin (2 * Real.pi * u) = Real.sin a ∧
      Real.cos (2 * Real.pi * v) = Real.cos b ∧ Real.sin (2 * Real.pi * v) = Real.sin b := by
  have hb := abs_le.mp (Real.abs_cos_le_one b)
  have hs := abs_le.mp (Real.abs_sin_le_one b)
  have hp := Real.pi_pos
  have hq : 0 < R + r * Real.cos b := by nlinarith
  have t1 := Real.sin_sq_add_cos_sq a
  have t2 := Real.sin_sq_add_cos_sq b
  obtain ⟨u, hu, hu0, hu1, huc, hus⟩ := turn_atan2 (F := F) ((R + r * Real.cos b) * Real.sin a) ((R + r * Real.cos b) * Real.cos a)
  have hsq : Real.sqrt (((R + r * Real.cos b) * Real.cos a) ^ 2 + ((R + r * Real.cos b) * Real.sin a) ^ 2) = R + r * Real.cos b := by
    rw [show ((R + r * Real.cos b) * Real.cos a) ^ 2 + ((R + r * Real.cos b) * Real.sin a) ^ 2 = (R + r * Real.cos b) ^ 2 by
      linear_combination (R + r * Real.cos b) ^ 2 * t1, Real.sqrt_sq hq.le]
  rw [hsq] at huc hus
  have huc' := mul_left_cancel₀ hq.ne' huc
  have hus' := mul_left_cancel₀ hq.ne' hus
  obtain ⟨θ, hθ⟩ : ∃ θ, θ = Real.arcsin (Real.sin b) := ⟨_, rfl⟩
  have hθ1 : -(Real.pi / 2) ≤ θ := hθ ▸ Real.neg_pi_div_two_le_arcsin _
  have hθ2 : θ ≤ Real.pi / 2 := hθ ▸ Real.arcsin_le_pi_div_two _
  have hsθ : Real.sin θ = Real.sin b := by rw [hθ, Real.sin_arcsin hs.1 hs.2]
  have hcθ : Real.cos θ = |Real.cos b| := by
    rw [hθ, Real.cos_arcsin, ← Real.sqrt_sq_eq_abs]; congr 1; linarith
  have hlt : ((R + r * Real.cos b) * Real.cos a) * ((R + r * Real.cos b) * Real.cos a) +
      ((R + r * Real.cos b) * Real.sin a) * ((R + r * Real.cos b) * Real.sin a) < R * R ↔ Real.cos b < 0 := by
    rw [show ((R + r * Real.cos b) * Real.cos a) * ((R + r * Real.cos b) * Real.cos a) +
      ((R + r * Real.cos b) * Real.sin a) * ((R + r * Real.cos b) * Real.sin a) = (R + r * Real.cos b) ^ 2 by
      linear_combination (R + r * Real.cos b) ^ 2 * t1]
    constructor
    · intro h; by_contra hc; push Not at hc; nlinarith [mul_nonneg hr.le hc]
    · intro h; nlinarith [mul_neg_of_pos_of_neg hr h]
  -- the angle before the reduction
  obtain ⟨φ, hφ1, hφ2, hφc, hφs, hφe⟩ : ∃ φ : ℝ, -(Real.pi / 2) ≤ φ ∧ φ < 2 * Real.pi ∧ Real.cos φ = Real.cos b ∧
      Real.sin φ = Real.sin b ∧ (if Real.cos b < 0 then Real.pi - θ else θ) = φ := by
    by_cases h : Real.cos b < 0
    · refine ⟨Real.pi - θ, by linarith, by linarith, ?_, ?_, if_pos h⟩
      · rw [Real.cos_pi_sub, hcθ, abs_of_neg h, neg_neg]
      · rw [Real.sin_pi_sub, hsθ]
    · refine ⟨θ, hθ1, by linarith, ?_, hsθ, if_neg h⟩
      rw [hcθ, abs_of_nonneg (not_lt.mp h)]
  have h2p : 2 * Real.pi ≠ 0 := by positivity
  have hφ' : ∃ ψ : ℝ, 0 ≤ ψ ∧ ψ < 2 * Real.pi ∧ Real.cos ψ = Real.cos b ∧ Real.sin ψ = Real.sin b ∧
      (if φ < 0 then φ + 2 * Real.pi else φ) = ψ := by
    by_cases h : φ < 0
    · exact ⟨_, by linarith, by linarith, by rw [Real.cos_add_two_pi, hφc], by rw [Real.sin_add_two_pi, hφs], if_pos h⟩
    · exact ⟨φ, not_lt.mp h, hφ2, hφc, hφs, if_neg h⟩
  obtain ⟨ψ, hψ0, hψ1, hψc, hψs, hψe⟩ := hφ'
  refine ⟨u, ψ / (2 * Real.pi), ?_, hu0, hu1, by positivity, by rw [div_lt_one (by positivity)]; exact hψ1, huc', hus',
    by rw [mul_div_cancel₀ _ h2p, hψc], by rw [mul_div_cancel₀ _ h2p, hψs]⟩
  have e0 : (cv (torusAt c R r a b) : Vec (Fl F) 3) 0 - (cv c : Vec (Fl F) 3) 0 = fin ((R + r * Real.cos b) * Real.cos a) := by
    show (fin (c 0 + _) : Fl F) - fin (c 0) = _
    rw [sub_fin, add_sub_cancel_left]
  have e1 : (cv (torusAt c R r a b) : Vec (Fl F) 3) 1 - (cv c : Vec (Fl F) 3) 1 = fin ((R + r * Real.cos b) * Real.sin a) := by
    show (fin (c 1 + _) : Fl F) - fin (c 1) = _
    rw [sub_fin, add_sub_cancel_left]
  have e2 : ((cv (torusAt c R r a b) : Vec (Fl F) 3) 2 - (cv c : Vec (Fl F) 3) 2) / fin r = fin (Real.sin b) := by
    show ((fin (c 2 + _) : Fl F) - fin (c 2)) / fin r = _
    rw [sub_fin, add_sub_cancel_left, div_fin _ hr.ne', fin_inj]; field_simp
  unfold Torus.getUV Torus.ofReal
  simp only [e0, e1, e2]
  refine Prod.ext hu ?_
  dsimp only
  have h3 : (if Scalar.lt ((fin ((R + r * Real.cos b) * Real.cos a) : Fl F) * fin ((R + r * Real.cos b) * Real.cos a) +
      fin ((R + r * Real.cos b) * Real.sin a) * fin ((R + r * Real.cos b) * Real.sin a)) (fin R * fin R) = true then
        pi - Scalar.asin (fin (Real.sin b) : Fl F) else Scalar.asin (fin (Real.sin b) : Fl F)) = fin φ := by
    simp only [mul_fin, add_fin, lt_fin, decide_eq_true_eq, hlt, asin_fin hs.1 hs.2, pi_def, sub_fin, ← hθ]
    rw [← hφe]; split_ifs <;> rfl
  rw [h3]
  have h4 : (if Scalar.lt (fin φ : Fl F) 0 = true then (fin φ : Fl F) + 2 * pi else fin φ) = fin ψ := by
    simp only [ofNat_def, lt_fin, decide_eq_true_eq, pi_def, Nat.cast_ofNat, Nat.cast_zero, mul_fin, add_fin]
    rw [← hψe]; split_ifs <;> rfl
  rw [h4, pi_def, ofNat_def, mul_fin]
  push_cast
  rw [div_fin _ h2p]

/-- C58: on a ring torus `get_uv` gives parameters in `[0,1)` that `operator()` takes back to the point. -/
theorem C58_getUV [F.Exact] (c : Fin 3 → ℝ) (R r : ℝ) (hr : 0 < r) (hR : r < R) (p : Fin 3 → ℝ) (hp : p ∈ torusSet c R r) :
    ∃ u v : ℝ, (Torus.ofReal c R r : Torus (Fl F)).getUV (cv p) = (fin u, fin v) ∧ 0 ≤ u ∧ u < 1 ∧ 0 ≤ v ∧ v < 1 ∧
      (Torus.ofReal c R r : Torus (Fl F)).eval (fin u) (fin v) = cv p := by
  obtain ⟨a, b, rfl⟩ := hp
  obtain ⟨u, v, h, hu0, hu1, hv0, hv1, g1, g2, g3, g4⟩ := Torus.getUV_spec (F := F) c hr hR a b
  refine ⟨u, v, h, hu0, hu1, hv0, hv1, ?_⟩
  rw [Torus.eval_fin, cv_inj]
  unfold torusAt
  rw [g1, g2, g3, g4]

example : ∃ u v : ℝ, (Torus.ofReal 0 2 1 : Torus (Fl exact64)).getUV (cv ![13/5, 0, 4/5]) = (fin u, fin v) ∧
    (Torus.ofReal 0 2 1 : Torus (Fl exact64)).eval (fin u) (fin v) = cv ![13/5, 0, 4/5] := by
  obtain ⟨u, v, h1, -, -, -, -, h2⟩ := C58_getUV (F := exact64) 0 2 1 one_pos (by norm_num) _ torus_point
  exact ⟨u, v, h1, h2⟩

/-- C58: on a ring torus `operator()` followed by `get_uv` gives the parameters back, for all parameters in `[0,1)`. -/
theorem C58_getUV_eval [F.Exact] (c : Fin 3 → ℝ) (R r : ℝ) (hr : 0 < r) (hR : r < R) (u v : ℝ) (hu0 : 0 ≤ u) (hu1 : u < 1)
    (hv0 : 0 ≤ v) (hv1 : v < 1) :
    (Torus.ofReal c R r : Torus (Fl F)).getUV ((Torus.ofReal c R r : Torus (Fl F)).eval (fin u) (fin v)) = (fin u, fin v) := by
  rw [Torus.eval_fin]
  obtain ⟨u', v', h, hu0', hu1', hv0', hv1', g1, g2, g3, g4⟩ :=
    Torus.getUV_spec (F := F) c hr hR (2 * Real.pi * u) (2 * Real.pi * v)
  rw [h, turn_inj hu0' hu1' hu0 hu1 g1 g2, turn_inj hv0' hv1' hv0 hv1 g3 g4]

example : (Torus.ofReal (F := exact64) 0 2 1).getUV ((Torus.ofReal (F := exact64) 0 2 1).eval (fin (1/3)) (fin (5/8))) =
    (fin (1/3), fin (5/8)) :=
  C58_getUV_eval 0 2 1 (by norm_num) (by norm_num) _ _ (by norm_num) (by norm_num) (by norm_num) (by norm_num)

/-- C58: the box contains the torus. -/
theorem C58_box [F.Exact] (c : Fin 3 → ℝ) (R r : ℝ) (hR : 0 ≤ R) (hr : 0 ≤ r) :
    ∃ lo hi : Fin 3 → ℝ, (Torus.ofReal c R r : Torus (Fl F)).bbox = (true, AABB.ofReal lo hi) ∧
      ∀ p ∈ torusSet c R r, InBox lo hi p := by
  refine ⟨c - ![R + r, R + r, r], c + ![R + r, R + r, r], ?_, fun p hp => torus_bounds hR hr hp⟩
  unfold Torus.bbox Torus.ofReal AABB.ofReal
  simp only [fl, cv_vec3]

example : ∃ lo hi : Fin 3 → ℝ, (Torus.ofReal 0 2 1 : Torus (Fl exact64)).bbox = (true, AABB.ofReal lo hi) ∧ InBox lo hi ![13/5, 0, 4/5] := by
  obtain ⟨lo, hi, h, h1⟩ := C58_box (F := exact64) 0 2 1 (by norm_num) (by norm_num)
  exact ⟨lo, hi, h, h1 _ torus_point⟩

/-- The outward unit normal at the angles `a`, `b`. -/
noncomputable def torusNormal (a b : ℝ) : Fin 3 → ℝ := ![Real.cos b * Real.cos a, Real.cos b * Real.sin a, Real.sin b]

theorem torusNormal_unit (a b : ℝ) : torusNormal a b ⬝ᵥ torusNormal a b = 1 := by
  have t1 := Real.sin_sq_add_cos_sq a
  have t2 := Real.sin_sq_add_cos_sq b
  simp only [torusNormal, dotProduct, Fin.sum_univ_three]
  simp only [Fin.isValue, cons_val_zero, cons_val_one, cons_val]
  linear_combination Real.cos b ^ 2 * t1 + t2

/-- The gradient as the code computes it, at a point of the torus. -/
theorem Torus.gradient_fin [F.Exact] (c : Fin 3 → ℝ) (R r a b : ℝ) :
    (Torus.ofReal c R r : Torus (Fl F)).gradient (cv (torusAt c R r a b)) =
      cv ((8 * R * r * (R + r * Real.cos b)) • torusNormal a b) := by
  have t1 := Real.sin_sq_add_cos_sq a
  have t2 := Real.sin_sq_add_cos_sq b
  unfold Torus.gradient Torus.ofReal
  simp only [fl, Nat.cast_ofNat, cv_vec3, cv_inj]
  have hq : ((R + r * Real.cos b) * Real.cos a) * ((R + r * Real.cos b) * Real.cos a) +
      ((R + r * Real.cos b) * Real.sin a) * ((R + r * Real.cos b) * Real.sin a) + (r * Real.sin b) * (r * Real.sin b) - r * r =
      R ^ 2 + 2 * R * r * Real.cos b := by
    linear_combination (R + r * Real.cos b) ^ 2 * t1 + r ^ 2 * t2
  funext i
  unfold torusAt torusNormal
  match i with
  | 0 | 1 | 2 =>
    simp only [Fin.isValue, cons_val_zero, cons_val_one, cons_val, add_sub_cancel_left, hq, Pi.smul_apply, smul_eq_mul]
    ring

/-- Partial derivatives of the implicit function. -/
def torusGrad (c : Fin 3 → ℝ) (R r : ℝ) (p : Fin 3 → ℝ) : Fin 3 → ℝ :=
  let s := (p 0 - c 0) ^ 2 + (p 1 - c 1) ^ 2 + (p 2 - c 2) ^ 2 - r ^ 2
  ![4 * (p 0 - c 0) * (s - R ^ 2), 4 * (p 1 - c 1) * (s - R ^ 2), 4 * (p 2 - c 2) * (s + R ^ 2)]

theorem torusGrad_deriv (c : Fin 3 → ℝ) (R r : ℝ) (p : Fin 3 → ℝ) (i : Fin 3) :
    HasDerivAt (fun x => torusF c R r (Function.update p i x)) (torusGrad c R r p i) (p i) := by
  have hsq : ∀ a x : ℝ, HasDerivAt (fun x : ℝ => (x - a) ^ 2) (2 * (x - a)) x := by
    intro a x
    have := ((hasDerivAt_id x).sub_const a).pow 2
    exact this.congr_deriv (by simp)
  have key : ∀ A B k m x : ℝ, HasDerivAt (fun x : ℝ => ((x - A) ^ 2 + B + R ^ 2 - r ^ 2) ^ 2 - 4 * R ^ 2 * (k * (x - A) ^ 2 + m))
      (2 * ((x - A) ^ 2 + B + R ^ 2 - r ^ 2) * (2 * (x - A)) - 4 * R ^ 2 * (k * (2 * (x - A)))) x := by
    intro A B k m x
    have h1 := (((((hsq A x).add_const B).add_const (R ^ 2)).sub_const (r ^ 2)).pow 2).sub
      ((((hsq A x).const_mul k).add_const m).const_mul (4 * R ^ 2))
    exact h1.congr_deriv (by simp)
  match i with
  | 0 =>
    have := key (c 0) ((p 1 - c 1) ^ 2 + (p 2 - c 2) ^ 2) 1 ((p 1 - c 1) ^ 2) (p 0)
    refine (this.congr_deriv ?_).congr_of_eventuallyEq (Filter.Eventually.of_forall fun x => ?_)
    · simp only [torusGrad, cons_val_zero]; ring
    · simp [torusF]; ring
  | 1 =>
    have := key (c 1) ((p 0 - c 0) ^ 2 + (p 2 - c 2) ^ 2) 1 ((p 0 - c 0) ^ 2) (p 1)
    refine (this.congr_deriv ?_).congr_of_eventuallyEq (Filter.Eventually.of_forall fun x => ?_)
    · simp only [torusGrad, cons_val_one, cons_val_zero]; ring
    · simp [torusF]; ring
  | 2 =>
    have := key (c 2) ((p 0 - c 0) ^ 2 + (p 1 - c 1) ^ 2) 0 ((p 0 - c 0) ^ 2 + (p 1 - c 1) ^ 2) (p 2)
    refine (this.congr_deriv ?_).congr_of_eventuallyEq (Filter.Eventually.of_forall fun x => ?_)
    · simp only [torusGrad, cons_val]; ring
    · simp [torusF]; ring

/-- C58: on a ring torus `normal(p)` is the unit vector along the gradient of the residual. -/
theorem C58_normal [F.Exact] (c : Fin 3 → ℝ) (R r : ℝ) (hr : 0 < r) (hR : r < R) (p : Fin 3 → ℝ) (hp : p ∈ torusSet c R r) :
    ∃ (m g : Fin 3 → ℝ) (f : (Fin 3 → ℝ) → ℝ), (Torus.ofReal c R r : Torus (Fl F)).normal (cv p) = cv m ∧ m ⬝ᵥ m = 1 ∧
      (∀ q, (Torus.ofReal c R r : Torus (Fl F)).residual (cv q) = fin (f q)) ∧
      (∀ i, HasDerivAt (fun x => f (Function.update p i x)) (g i) (p i)) ∧ ∃ k : ℝ, 0 < k ∧ g = k • m := by
  obtain ⟨a, b, rfl⟩ := hp
  have hb := abs_le.mp (Real.abs_cos_le_one b)
  have hq : 0 < R + r * Real.cos b := by nlinarith
  have hk : 0 < 8 * R * r * (R + r * Real.cos b) := by have : 0 < R := by linarith
                                                       positivity
  refine ⟨torusNormal a b, torusGrad c R r (torusAt c R r a b), torusF c R r, ?_, torusNormal_unit a b,
    Torus.residual_fin c R r, torusGrad_deriv c R r _, _, hk, ?_⟩
  · unfold Torus.normal
    rw [Torus.gradient_fin]
    have hn : Vec.norm (cv ((8 * R * r * (R + r * Real.cos b)) • torusNormal a b) : Vec (Fl F) 3) = fin (8 * R * r * (R + r * Real.cos b)) := by
      simp only [fl]
      rw [smul_dotProduct, dotProduct_smul, torusNormal_unit, smul_eq_mul, smul_eq_mul, mul_one, Real.sqrt_mul_self hk.le]
    unfold Vec.normalize
    rw [hn]
    funext i
    simp only [cv_apply, Pi.smul_apply, smul_eq_mul]
    rw [div_fin _ hk.ne', mul_div_cancel_left₀ _ hk.ne']
  · have h := Torus.gradient_fin (F := exact0) c R r a b
    have h' : (Torus.ofReal c R r : Torus (Fl exact0)).gradient (cv (torusAt c R r a b)) = cv (torusGrad c R r (torusAt c R r a b)) := by
      unfold Torus.gradient Torus.ofReal torusGrad
      simp only [fl, Nat.cast_ofNat, cv_vec3, cv_inj]
      simp only [sq]
    rw [h', cv_inj] at h
    exact h

example : ∃ m : Fin 3 → ℝ, (Torus.ofReal 0 2 1 : Torus (Fl exact64)).normal (cv ![13/5, 0, 4/5]) = cv m ∧ m ⬝ᵥ m = 1 := by
  obtain ⟨m, -, -, h, h1, -⟩ := C58_normal (F := exact64) 0 2 1 one_pos (by norm_num) _ torus_point
  exact ⟨m, h, h1⟩

/-- The Gaussian curvature at the angle `b` around the tube. -/
noncomputable def torusK (R r b : ℝ) : ℝ := Real.cos b / (r * (R + r * Real.cos b))

theorem Torus.gaussianCurvature_fin [F.Exact] (c : Fin 3 → ℝ) {R r : ℝ} (hr : 0 < r) (hR : r < R) (a b : ℝ) :
    (Torus.ofReal c R r : Torus (Fl F)).gaussianCurvature (cv (torusAt c R r a b)) = fin (torusK R r b) := by
  have hb := abs_le.mp (Real.abs_cos_le_one b)
  have hq : 0 < R + r * Real.cos b := by nlinarith
  have t1 := Real.sin_sq_add_cos_sq a
  have t2 := Real.sin_sq_add_cos_sq b
  have hR0 : 0 < R := by linarith
  unfold Torus.gaussianCurvature Torus.ofReal
  have e0 : (cv (torusAt c R r a b) : Vec (Fl F) 3) 0 - (cv c : Vec (Fl F) 3) 0 = fin ((R + r * Real.cos b) * Real.cos a) := by
    show (fin (c 0 + _) : Fl F) - fin (c 0) = _
    rw [sub_fin, add_sub_cancel_left]
  have e1 : (cv (torusAt c R r a b) : Vec (Fl F) 3) 1 - (cv c : Vec (Fl F) 3) 1 = fin ((R + r * Real.cos b) * Real.sin a) := by
    show (fin (c 1 + _) : Fl F) - fin (c 1) = _
    rw [sub_fin, add_sub_cancel_left]
  have e2 : ((cv (torusAt c R r a b) : Vec (Fl F) 3) 2 - (cv c : Vec (Fl F) 3) 2) / fin r = fin (Real.sin b) := by
    show ((fin (c 2 + _) : Fl F) - fin (c 2)) / fin r = _
    rw [sub_fin, add_sub_cancel_left, div_fin _ hr.ne', fin_inj]; field_simp
  have e3 : Scalar.sqrt (Scalar.clamp ((1 : Fl F) - fin (Real.sin b) * fin (Real.sin b)) 0 1) = fin |Real.cos b| := by
    rw [ofNat_one, ofNat_zero, mul_fin, sub_fin, show 1 - Real.sin b * Real.sin b = Real.cos b ^ 2 by linarith,
      clamp_fin_of_mem (sq_nonneg _) (by nlinarith [sq_nonneg (Real.sin b)]), sqrt_fin (sq_nonneg _), Real.sqrt_sq_eq_abs]
  simp only [e0, e1, e2, e3]
  have e4 : (if Scalar.lt ((fin ((R + r * Real.cos b) * Real.cos a) : Fl F) * fin ((R + r * Real.cos b) * Real.cos a) +
      fin ((R + r * Real.cos b) * Real.sin a) * fin ((R + r * Real.cos b) * Real.sin a))
      (fin R * fin R + fin r * fin r * fin |Real.cos b| * fin |Real.cos b|) = true then -(fin |Real.cos b| : Fl F) else fin |Real.cos b|) =
      fin (Real.cos b) := by
    simp only [mul_fin, add_fin, lt_fin, decide_eq_true_eq, Fl.neg_fin]
    rw [show ((R + r * Real.cos b) * Real.cos a) * ((R + r * Real.cos b) * Real.cos a) +
      ((R + r * Real.cos b) * Real.sin a) * ((R + r * Real.cos b) * Real.sin a) = (R + r * Real.cos b) ^ 2 by
      linear_combination (R + r * Real.cos b) ^ 2 * t1,
      show R * R + r * r * |Real.cos b| * |Real.cos b| = R ^ 2 + r ^ 2 * Real.cos b ^ 2 by rw [← sq_abs (Real.cos b)]; ring]
    have hRr : 0 < R * r := mul_pos hR0 hr
    by_cases h : Real.cos b < 0
    · rw [if_pos (by nlinarith [mul_neg_of_pos_of_neg hRr h]), abs_of_neg h, neg_neg]
    · push Not at h
      rw [if_neg (by push Not; nlinarith [mul_nonneg hRr.le h]), abs_of_nonneg h]
  rw [e4]
  simp only [mul_fin, add_fin]
  rw [div_fin _ (by positivity)]
  rfl

/-- C58: on a ring torus the curvature lies within the bounds, and the bounds are real numbers. -/
theorem C58_curvature_bounds [F.Exact] (c : Fin 3 → ℝ) (R r : ℝ) (hr : 0 < r) (hR : r < R) :
    ∃ lo hi : ℝ, (Torus.ofReal c R r : Torus (Fl F)).curvatureBounds = (fin lo, fin hi) ∧
      (∀ p ∈ torusSet c R r, ∃ K : ℝ, (Torus.ofReal c R r : Torus (Fl F)).gaussianCurvature (cv p) = fin K ∧ lo ≤ K ∧ K ≤ hi) ∧
      (∃ p ∈ torusSet c R r, (Torus.ofReal c R r : Torus (Fl F)).gaussianCurvature (cv p) = fin lo) ∧
      ∃ p ∈ torusSet c R r, (Torus.ofReal c R r : Torus (Fl F)).gaussianCurvature (cv p) = fin hi := by
  have h1 : 0 < R - r := by linarith
  have h2 : 0 < R + r := by linarith
  refine ⟨-1 / (r * (R - r)), 1 / (r * (R + r)), ?_, ?_, ⟨torusAt c R r 0 Real.pi, ⟨_, _, rfl⟩, ?_⟩, torusAt c R r 0 0, ⟨_, _, rfl⟩, ?_⟩
  · unfold Torus.curvatureBounds Torus.ofReal
    simp only [fl, Nat.cast_one]
    rw [div_fin _ (by positivity), div_fin _ (by positivity)]
  · rintro p ⟨a, b, rfl⟩
    have hb := abs_le.mp (Real.abs_cos_le_one b)
    have hq : 0 < R + r * Real.cos b := by nlinarith
    refine ⟨_, Torus.gaussianCurvature_fin c hr hR a b, ?_, ?_⟩
    · unfold torusK
      rw [div_le_div_iff₀ (by positivity) (by positivity)]
      nlinarith [mul_nonneg (mul_pos hr (show 0 < R by linarith)).le (show 0 ≤ 1 + Real.cos b by linarith)]
    · unfold torusK
      rw [div_le_div_iff₀ (by positivity) (by positivity)]
      nlinarith [mul_nonneg (mul_pos hr (show 0 < R by linarith)).le (show 0 ≤ 1 - Real.cos b by linarith)]
  · rw [Torus.gaussianCurvature_fin c hr hR, fin_inj]; unfold torusK
    rw [Real.cos_pi]; ring_nf
  · rw [Torus.gaussianCurvature_fin c hr hR, fin_inj]; unfold torusK
    rw [Real.cos_zero]; ring_nf

example : ∃ lo hi K : ℝ, (Torus.ofReal 0 2 1 : Torus (Fl exact64)).curvatureBounds = (fin lo, fin hi) ∧
    (Torus.ofReal 0 2 1 : Torus (Fl exact64)).gaussianCurvature (cv ![13/5, 0, 4/5]) = fin K ∧ lo ≤ K ∧ K ≤ hi := by
  obtain ⟨lo, hi, h, h1, -⟩ := C58_curvature_bounds (F := exact64) 0 2 1 one_pos (by norm_num)
  obtain ⟨K, hK⟩ := h1 _ torus_point
  exact ⟨lo, hi, K, h, hK⟩

/-- A hit ends with the completion of the record. -/
theorem Torus.hit_true {s : Torus (Fl F)} {ry : Ray (Fl F)} {tmin tmax : Fl F} {rec rec' : HitRecord (Fl F)}
    (h : s.hit ry tmin tmax rec = (true, rec')) : ∃ t, rec' = s.complete ry { rec with t := t } := by
  unfold Torus.hit at h
  dsimp only at h
  split_ifs at h
  · exact absurd (congrArg Prod.fst h) Bool.false_ne_true
  · split at h
    · exact absurd (congrArg Prod.fst h) Bool.false_ne_true
    · next t _ =>
      have := Torus.finish_snd s ry { rec with t := t }
      rw [h] at this
      exact ⟨t, this⟩

/-- C58: on every hit whose recorded point is on a ring torus, the recorded normal is the unit gradient up to sign and
does not point along the ray; `u` and `v` are in `[0,1)` and `operator()` takes them back to the point; the recorded
forms are those of the parametrization there, for the outward normal; and the Gaussian curvature of the record is
`gaussian_curvature(p)`. -/
theorem C58_record [F.Exact] (c : Fin 3 → ℝ) (R r : ℝ) (hr : 0 < r) (hR : r < R) (o d : Fin 3 → ℝ) (tmin tmax : Fl F)
    (rec rec' : HitRecord (Fl F)) (p : Fin 3 → ℝ) (hp : p ∈ torusSet c R r)
    (h : (Torus.ofReal c R r).hit ⟨cv o, cv d⟩ tmin tmax rec = (true, rec')) (hrp : rec'.p = cv p) :
    ∃ (n m : Fin 3 → ℝ) (u v : ℝ) (s : ℝ → ℝ → Fin 3 → ℝ),
      (Torus.ofReal c R r : Torus (Fl F)).normal (cv p) = cv n ∧ n ⬝ᵥ n = 1 ∧
      rec'.normal = cv m ∧ (m = n ∨ m = -n) ∧ d ⬝ᵥ m ≤ 0 ∧ (rec'.frontFace = true ↔ d ⬝ᵥ n < 0) ∧
      rec'.u = fin u ∧ rec'.v = fin v ∧ 0 ≤ u ∧ u < 1 ∧ 0 ≤ v ∧ v < 1 ∧ s u v = p ∧
      (∀ u v : ℝ, (Torus.ofReal c R r : Torus (Fl F)).eval (fin u) (fin v) = cv (s u v)) ∧
      HasForms rec' s n u v ∧
      rec'.gaussianCurvature = (Torus.ofReal c R r : Torus (Fl F)).gaussianCurvature (cv p) := by
  obtain ⟨t, rfl⟩ := Torus.hit_true h
  have hp' : (Torus.ofReal c R r : Torus (Fl F)).refine ((Ray.mk (cv o) (cv d) : Ray (Fl F)).at t) (cv d) = cv p := hrp
  obtain ⟨a, b, rfl⟩ := hp
  obtain ⟨u, v, huv, hu0, hu1, hv0, hv1, g1, g2, g3, g4⟩ := Torus.getUV_spec (F := F) c hr hR a b
  have hb := abs_le.mp (Real.abs_cos_le_one b)
  have hq : 0 < R + r * Real.cos b := by nlinarith
  have hR0 : 0 < R := by linarith
  have hpi := Real.pi_pos
  have hk : 0 < 8 * R * r * (R + r * Real.cos b) := by positivity
  have hnn : Vec.norm (cv ((8 * R * r * (R + r * Real.cos b)) • torusNormal a b) : Vec (Fl F) 3) = fin (8 * R * r * (R + r * Real.cos b)) := by
    simp only [fl]
    rw [smul_dotProduct, dotProduct_smul, torusNormal_unit, smul_eq_mul, smul_eq_mul, mul_one, Real.sqrt_mul_self hk.le]
  have hgn : (Torus.ofReal c R r : Torus (Fl F)).gradient (cv (torusAt c R r a b)) /.
      Vec.norm ((Torus.ofReal c R r : Torus (Fl F)).gradient (cv (torusAt c R r a b))) = cv (torusNormal a b) := by
    rw [Torus.gradient_fin, hnn, cv_sdiv hk.ne', smul_smul, inv_mul_cancel₀ hk.ne', one_smul]
  obtain ⟨m, hm, hdm, hmm, hff⟩ := C37_opposes (F := F)
    { rec with t := t, p := cv (torusAt c R r a b), gradMag := Vec.norm ((Torus.ofReal c R r : Torus (Fl F)).gradient (cv (torusAt c R r a b))) }
    o d (torusNormal a b)
  obtain ⟨rc, hrc⟩ : ∃ rc, rc = (Torus.ofReal c R r).complete ⟨cv o, cv d⟩ { rec with t := t } := ⟨_, rfl⟩
  have hcomp : rc = (Torus.ofReal c R r : Torus (Fl F)).setForms
      { HitRecord.setFaceNormal { rec with t := t, p := cv (torusAt c R r a b), gradMag := Vec.norm ((Torus.ofReal c R r : Torus (Fl F)).gradient (cv (torusAt c R r a b))) }
        ⟨cv o, cv d⟩ (cv (torusNormal a b)) with u := fin u, v := fin v } := by
    rw [hrc]
    unfold Torus.complete
    dsimp only
    rw [hp', huv, hgn]
  rw [← hrc]
  have hE : rc.E = fin (4 * Real.pi * Real.pi * (R + r * Real.cos b) * (R + r * Real.cos b)) := by
    have : rc.E = (4 : Fl F) * pi * pi * (fin R + fin r * cos (2 * pi * fin v)) * (fin R + fin r * cos (2 * pi * fin v)) := by rw [hcomp]; rfl
    rw [this]; simp only [fl, Nat.cast_ofNat, g3]
  have hF : rc.F = fin 0 := by rw [hcomp, ← ofNat_zero]; rfl
  have hG : rc.G = fin (4 * Real.pi * Real.pi * r * r) := by
    have : rc.G = (4 : Fl F) * pi * pi * fin r * fin r := by rw [hcomp]; rfl
    rw [this]; simp only [fl, Nat.cast_ofNat]
  have he : rc.e = fin (-4 * Real.pi * Real.pi * (R + r * Real.cos b) * Real.cos b) := by
    have : rc.e = (-4 : Fl F) * pi * pi * (fin R + fin r * cos (2 * pi * fin v)) * cos (2 * pi * fin v) := by rw [hcomp]; rfl
    rw [this]; simp only [fl, Nat.cast_ofNat, g3]
  have hf : rc.f = fin 0 := by rw [hcomp, ← ofNat_zero]; rfl
  have hg : rc.g = fin (-4 * Real.pi * Real.pi * r) := by
    have : rc.g = (-4 : Fl F) * pi * pi * fin r := by rw [hcomp]; rfl
    rw [this]; simp only [fl, Nat.cast_ofNat]
  have hnorm : (Torus.ofReal c R r : Torus (Fl F)).normal (cv (torusAt c R r a b)) = cv (torusNormal a b) := hgn
  refine ⟨torusNormal a b, m, u, v, fun u v => torusAt c R r (2 * Real.pi * u) (2 * Real.pi * v), hnorm, torusNormal_unit a b,
    by rw [hcomp]; exact hm, hmm, hdm, by rw [hcomp]; exact hff, by rw [hcomp]; rfl, by rw [hcomp]; rfl, hu0, hu1, hv0, hv1,
    by dsimp only; unfold torusAt; rw [g1, g2, g3, g4], Torus.eval_fin c R r, ?_, ?_⟩
  · refine ⟨fun u v => ![-(2 * Real.pi * (R + r * Real.cos (2 * Real.pi * v)) * Real.sin (2 * Real.pi * u)),
        2 * Real.pi * (R + r * Real.cos (2 * Real.pi * v)) * Real.cos (2 * Real.pi * u), 0],
      fun u v => ![-(2 * Real.pi * r * Real.sin (2 * Real.pi * v) * Real.cos (2 * Real.pi * u)),
        -(2 * Real.pi * r * Real.sin (2 * Real.pi * v) * Real.sin (2 * Real.pi * u)), 2 * Real.pi * r * Real.cos (2 * Real.pi * v)],
      fun u v i => ?_,
      ![-(4 * Real.pi ^ 2 * (R + r * Real.cos (2 * Real.pi * v)) * Real.cos (2 * Real.pi * u)),
        -(4 * Real.pi ^ 2 * (R + r * Real.cos (2 * Real.pi * v)) * Real.sin (2 * Real.pi * u)), 0],
      ![4 * Real.pi ^ 2 * r * Real.sin (2 * Real.pi * v) * Real.sin (2 * Real.pi * u),
        -(4 * Real.pi ^ 2 * r * Real.sin (2 * Real.pi * v) * Real.cos (2 * Real.pi * u)), 0],
      ![-(4 * Real.pi ^ 2 * r * Real.cos (2 * Real.pi * v) * Real.cos (2 * Real.pi * u)),
        -(4 * Real.pi ^ 2 * r * Real.cos (2 * Real.pi * v) * Real.sin (2 * Real.pi * u)), -(4 * Real.pi ^ 2 * r * Real.sin (2 * Real.pi * v))],
      fun i => ?_, ?_⟩
    · have c1 := hasDerivAt_cos_mul (2 * Real.pi) u
      have s1 := hasDerivAt_sin_mul (2 * Real.pi) u
      have c2 := hasDerivAt_cos_mul (2 * Real.pi) v
      have s2 := hasDerivAt_sin_mul (2 * Real.pi) v
      match i with
      | 0 => exact ⟨((c1.const_mul _).const_add (c 0)).congr_deriv (by simp only [cons_val_zero]; ring),
          ((((c2.const_mul r).const_add R).mul_const _).const_add (c 0)).congr_deriv (by simp only [cons_val_zero]; ring)⟩
      | 1 => exact ⟨((s1.const_mul _).const_add (c 1)).congr_deriv (by simp only [cons_val_zero, cons_val_one]; ring),
          ((((c2.const_mul r).const_add R).mul_const _).const_add (c 1)).congr_deriv (by simp only [cons_val_zero, cons_val_one]; ring)⟩
      | 2 => exact ⟨hasDerivAt_const u _, ((s2.const_mul r).const_add (c 2)).congr_deriv (by simp only [cons_val]; ring)⟩
    · have c1 := hasDerivAt_cos_mul (2 * Real.pi) u
      have s1 := hasDerivAt_sin_mul (2 * Real.pi) u
      have c2 := hasDerivAt_cos_mul (2 * Real.pi) v
      have s2 := hasDerivAt_sin_mul (2 * Real.pi) v
      match i with
      | 0 => exact ⟨((s1.const_mul _).neg).congr_deriv (by simp only [cons_val_zero]; ring),
          (((((c2.const_mul r).const_add R).const_mul (2 * Real.pi)).mul_const _).neg).congr_deriv (by simp only [cons_val_zero]; ring),
          (((s2.const_mul (2 * Real.pi * r)).mul_const _).neg).congr_deriv (by simp only [cons_val_zero]; ring)⟩
      | 1 => exact ⟨(c1.const_mul _).congr_deriv (by simp only [cons_val_zero, cons_val_one]; ring),
          ((((c2.const_mul r).const_add R).const_mul (2 * Real.pi)).mul_const _).congr_deriv (by simp only [cons_val_zero, cons_val_one]; ring),
          (((s2.const_mul (2 * Real.pi * r)).mul_const _).neg).congr_deriv (by simp only [cons_val_zero, cons_val_one]; ring)⟩
      | 2 => exact ⟨hasDerivAt_const u _, hasDerivAt_const v _, (c2.const_mul (2 * Real.pi * r)).congr_deriv (by simp only [cons_val]; ring)⟩
    · rw [hE, hF, hG, he, hf, hg]
      simp only [fin_inj, dotProduct, Fin.sum_univ_three, torusNormal, g1, g2, g3, g4]
      simp only [Fin.isValue, cons_val_zero, cons_val_one, cons_val]
      have t1 := Real.sin_sq_add_cos_sq a
      have t2 := Real.sin_sq_add_cos_sq b
      refine ⟨?_, ?_, ?_, ?_, ?_, ?_, ?_, ?_, ?_⟩
      · linear_combination (-4 * Real.pi ^ 2 * (R + r * Real.cos b) ^ 2) * t1
      · ring
      · linear_combination (-4 * Real.pi ^ 2 * r ^ 2 * Real.sin b ^ 2) * t1 - 4 * Real.pi ^ 2 * r ^ 2 * t2
      · linear_combination (4 * Real.pi ^ 2 * (R + r * Real.cos b) * Real.cos b) * t1
      · ring
      · linear_combination (4 * Real.pi ^ 2 * r * Real.cos b ^ 2) * t1 + 4 * Real.pi ^ 2 * r * t2
      · linear_combination Real.cos b ^ 2 * t1 + t2
      · ring
      · linear_combination (-2 * Real.pi * r * Real.sin b * Real.cos b) * t1
  · rw [Torus.gaussianCurvature_fin c hr hR]
    unfold HitRecord.gaussianCurvature
    rw [hE, hF, hG, he, hf, hg]
    simp only [fl]
    rw [div_fin _ (by rw [mul_zero, sub_zero]; positivity), fin_inj]
    unfold torusK
    generalize Real.cos b = x at *
    have := hq.ne'
    have := hr.ne'
    have := hpi.ne'
    field_simp
    ring

/-- The hit of `Torus.hit_case`. -/
example : ∃ rec', (Torus.ofReal (F := exact0) 0 2 1).hit ⟨cv ![-10, 0, 0], cv ![1, 0, 0]⟩ (fin 1) pinf
    (HitRecord.default Vec.nans Vec.nans true) = (true, rec') ∧ ∃ m : Fin 3 → ℝ, rec'.normal = cv m ∧ ![1, 0, 0] ⬝ᵥ m ≤ 0 := by
  obtain ⟨rec', h, -⟩ := Torus.hit_case
  obtain ⟨t, -, -, h2, h3⟩ := C56_ideal (F := exact0) rfl 0 2 1 (by norm_num) (by norm_num) ![-10, 0, 0] ![1, 0, 0]
    (fun h => by simpa using congrFun h 0) _ _ _ _ h
  obtain ⟨n, m, -, -, -, -, -, h4, -, h5, -⟩ := C58_record (F := exact0) 0 2 1 one_pos (by norm_num) _ _ _ _ _ _ _ h3 h h2
  exact ⟨rec', h, m, h4, h5⟩

end DRT
