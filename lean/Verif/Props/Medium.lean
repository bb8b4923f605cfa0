import Verif.Model.Material
import Verif.Props.Sphere
import Mathlib.Analysis.SpecialFunctions.Log.Basic

/-! # C73: `constant_medium`, and C93 for it -/

namespace DRT
open Scalar Fl Matrix

variable {F : Fmt}

namespace ConstantMedium

theorem hit_true {R : Type} [Scalar R] {m : ConstantMedium R} {draw : R} {rec1 rec2 : HitRecord R} {r : Ray R} {tmin tmax : R}
    {rec : HitRecord R} (h : (m.hit draw rec1 rec2 r tmin tmax rec).1 = true) :
    (m.boundary.hit r (-inf) inf rec1).1 = true ∧
    (m.boundary.hit r ((m.boundary.hit r (-inf) inf rec1).2.t + 100 * eps) inf rec2).1 = true ∧
    m.hit draw rec1 rec2 r tmin tmax rec = m.finish draw r tmin tmax (m.boundary.hit r (-inf) inf rec1).2.t
      (m.boundary.hit r ((m.boundary.hit r (-inf) inf rec1).2.t + 100 * eps) inf rec2).2.t rec := by
  unfold hit at h ⊢
  simp only at h ⊢
  split at h
  · rename_i h1
    split at h
    · rename_i h2
      refine ⟨h1, h2, ?_⟩
      rw [if_pos h1, if_pos h2]
    · cases h
  · cases h

/-- The lower end after clipping. -/
theorem clip_lo [F.Exact] {tmin : Fl F} (h0 : isNaN tmin = false) (e : ℝ) : tmin = pinf ∨
    ∃ e' : ℝ, (if lt (fin e) tmin then tmin else fin e) = fin e' ∧ e ≤ e' ∧ Scalar.le tmin (fin e') = true ∧
      (Scalar.le tmin (fin e) = true → e' = e) := by
  cases tmin with
  | nan => cases h0
  | ninf => exact Or.inr ⟨e, by simp, le_refl _, by simp, fun _ => rfl⟩
  | pinf => exact Or.inl rfl
  | fin a =>
    right
    by_cases ha : e < a
    · exact ⟨a, by simp [ha], ha.le, by simp, fun h => by simp at h; linarith⟩
    · exact ⟨e, by simp [ha], le_refl _, by simpa using ha, fun _ => rfl⟩

/-- The upper end after clipping. -/
theorem clip_hi [F.Exact] {tmax : Fl F} (h0 : isNaN tmax = false) (x : ℝ) : tmax = ninf ∨
    ∃ x' : ℝ, (if gt (fin x) tmax then tmax else fin x) = fin x' ∧ x' ≤ x ∧ Scalar.le (fin x') tmax = true ∧
      (Scalar.le (fin x) tmax = true → x' = x) := by
  cases tmax with
  | nan => cases h0
  | pinf => exact Or.inr ⟨x, by simp [gt], le_refl _, by simp, fun _ => rfl⟩
  | ninf => exact Or.inl rfl
  | fin a =>
    right
    by_cases ha : a < x
    · exact ⟨a, by simp [gt, ha], ha.le, by simp, fun h => by simp at h; linarith⟩
    · exact ⟨x, by simp [gt, ha], le_refl _, by simpa using ha, fun _ => rfl⟩

/-- The parameters after clipping to the range. -/
theorem clip [F.Exact] {tmin tmax : Fl F} (h0 : isNaN tmin = false) (h1 : isNaN tmax = false) (e x : ℝ)
    (h : ge (if lt (fin e) tmin then tmin else fin e) (if gt (fin x) tmax then tmax else fin x) = false) :
    ∃ e' x' : ℝ, (if lt (fin e) tmin then tmin else fin e) = fin e' ∧ (if gt (fin x) tmax then tmax else fin x) = fin x' ∧
      e ≤ e' ∧ x' ≤ x ∧ Scalar.le tmin (fin e') = true ∧ Scalar.le (fin x') tmax = true ∧ e' < x' ∧
      (Scalar.le tmin (fin e) = true → e' = e) ∧ (Scalar.le (fin x) tmax = true → x' = x) := by
  rcases clip_lo h0 e with rfl | ⟨e', he, a1, a2, a3⟩
  · rcases clip_hi h1 x with rfl | ⟨x', hx, b1, b2, b3⟩
    · simp [gt, ge] at h
    · rw [hx] at h; simp [ge] at h
  · rcases clip_hi h1 x with rfl | ⟨x', hx, b1, b2, b3⟩
    · rw [he] at h; simp [gt, ge] at h
    · rw [he, hx] at h
      exact ⟨e', x', he, hx, a1, b1, a2, b2, by simpa [ge] using h, a3, b3⟩

/-- What remains of `hit` once the parameters are clipped to the range and to nonnegative numbers. -/
theorem finish_eq [F.Exact] {m : ConstantMedium (Fl F)} {draw : Fl F} {o d : Fin 3 → ℝ} {tmin tmax t1 t2 : Fl F} {rec : HitRecord (Fl F)}
    {e x : ℝ} (he : (if lt t1 tmin then tmin else t1) = fin e) (hx : (if gt t2 tmax then tmax else t2) = fin x) (hl : e < x) :
    m.finish draw ⟨cv o, cv d⟩ tmin tmax t1 t2 rec =
      if gt (m.negInvDensity * log draw) (fin ((x - max e 0) * Real.sqrt (d ⬝ᵥ d))) then (false, rec)
      else (true, { rec with
        t := fin (max e 0) + m.negInvDensity * log draw / fin (Real.sqrt (d ⬝ᵥ d))
        p := (Ray.mk (cv o) (cv d)).at (fin (max e 0) + m.negInvDensity * log draw / fin (Real.sqrt (d ⬝ᵥ d)))
        normal := ![1, 0, 0], frontFace := true }) := by
  have h0 : (if lt (fin e : Fl F) 0 then (0 : Fl F) else fin e) = fin (max e 0) := by
    by_cases h : e < 0
    · simp [h, max_eq_right h.le]
    · simp [h, max_eq_left (not_lt.mp h)]
  have h1 : ge (fin e : Fl F) (fin x) = false := by simpa [ge] using hl
  unfold finish
  simp only [he, hx, h1, h0, cv_norm, sub_fin, mul_fin, Bool.false_eq_true, if_false]

/-- The distance drawn is positive, or infinite. -/
theorem dist_cases [F.Exact] (b : Hittable (Fl F)) {k ξ : ℝ} (hk : 0 < k) (h0 : 0 ≤ ξ) (h1 : ξ < 1) :
    (ξ = 0 ∧ (make b (fin k : Fl F)).negInvDensity * log (fin ξ) = pinf) ∨
    (0 < ξ ∧ (make b (fin k : Fl F)).negInvDensity * log (fin ξ) = fin (-Real.log ξ / k) ∧ 0 < -Real.log ξ / k) := by
  have hn : (make b (fin k : Fl F)).negInvDensity = fin (-1 / k) := by
    unfold make
    simp only [ofNat_one, Fl.neg_fin, div_fin _ hk.ne']
  rw [hn]
  rcases h0.eq_or_lt with rfl | h
  · left
    refine ⟨rfl, ?_⟩
    have h : -1 / k < 0 := div_neg_of_neg_of_pos (by norm_num) hk
    rw [log_zero, fin_mul_ninf, if_neg h.ne, infOf_pos (by linarith)]
  · right
    refine ⟨h, ?_, div_pos (neg_pos.mpr (Real.log_neg h h1)) hk⟩
    rw [log_fin h]
    rw [mul_fin, fin_inj]
    ring

end ConstantMedium

/-! ## C73 -/

/-- C73: when `hit` returns true, the boundary was met twice and the reported parameter is a nonnegative real number
between the two reported parameters `e` and `x` and inside the range, and the point is the point of the ray there. The
boundary is an arbitrary object, `ξ` the random number, `k` the density. -/
theorem C73_inside [F.Exact] (b : Hittable (Fl F)) {k ξ : ℝ} (hk : 0 < k) (h0 : 0 ≤ ξ) (h1 : ξ < 1) (o d : Fin 3 → ℝ)
    {tmin tmax : Fl F} (hmin : isNaN tmin = false) (hmax : isNaN tmax = false) (rec1 rec2 rec : HitRecord (Fl F)) {e x : ℝ}
    (he : (b.hit ⟨cv o, cv d⟩ (-inf) inf rec1).2.t = fin e)
    (hx : (b.hit ⟨cv o, cv d⟩ (fin e + 100 * eps) inf rec2).2.t = fin x)
    (hit : ((ConstantMedium.make b (fin k)).hit (fin ξ) rec1 rec2 ⟨cv o, cv d⟩ tmin tmax rec).1 = true) :
    (b.hit ⟨cv o, cv d⟩ (-inf) inf rec1).1 = true ∧ (b.hit ⟨cv o, cv d⟩ (fin e + 100 * eps) inf rec2).1 = true ∧
    ∃ t : ℝ, ((ConstantMedium.make b (fin k)).hit (fin ξ) rec1 rec2 ⟨cv o, cv d⟩ tmin tmax rec).2.t = fin t ∧
      ((ConstantMedium.make b (fin k)).hit (fin ξ) rec1 rec2 ⟨cv o, cv d⟩ tmin tmax rec).2.p = cv (o + t • d) ∧
      e ≤ t ∧ t ≤ x ∧ 0 ≤ t ∧ InRange (tmin, tmax) t := by
  obtain ⟨b1, b2, hf⟩ := ConstantMedium.hit_true hit
  change (b.hit ⟨cv o, cv d⟩ (-inf) inf rec1).1 = true at b1
  change (b.hit ⟨cv o, cv d⟩ ((b.hit ⟨cv o, cv d⟩ (-inf) inf rec1).2.t + 100 * eps) inf rec2).1 = true at b2
  change _ = ConstantMedium.finish _ _ _ _ _ (b.hit ⟨cv o, cv d⟩ (-inf) inf rec1).2.t
    (b.hit ⟨cv o, cv d⟩ ((b.hit ⟨cv o, cv d⟩ (-inf) inf rec1).2.t + 100 * eps) inf rec2).2.t _ at hf
  rw [he] at b2 hf
  rw [hx] at hf
  refine ⟨b1, b2, ?_⟩
  rw [hf] at hit ⊢
  have hge : ge (if lt (fin e) tmin then tmin else fin e) (if gt (fin x) tmax then tmax else fin x) = false := by
    by_contra h
    rw [Bool.not_eq_false] at h
    unfold ConstantMedium.finish at hit
    simp only [h, if_true] at hit
    cases hit
  obtain ⟨e', x', e1, e2, e3, e4, e5, e6, e7, -, -⟩ := ConstantMedium.clip hmin hmax e x hge
  rw [ConstantMedium.finish_eq e1 e2 e7] at hit ⊢
  rcases ConstantMedium.dist_cases b hk h0 h1 with ⟨-, hd⟩ | ⟨-, hd, hpos⟩
  · rw [hd] at hit
    simp [gt] at hit
  rw [hd] at hit ⊢
  set D := -Real.log ξ / k
  set L := Real.sqrt (d ⬝ᵥ d) with hL
  have hD : D ≤ (x' - max e' 0) * L := by
    by_contra h
    rw [if_pos (by simpa [gt] using h)] at hit
    cases hit
  rw [if_neg (by simpa [gt] using hD)]
  have hL0 : L ≠ 0 := by
    intro h
    rw [h, mul_zero] at hD
    linarith
  have hLp : 0 < L := lt_of_le_of_ne (Real.sqrt_nonneg _) (Ne.symm hL0)
  have hq : D / L ≤ x' - max e' 0 := by rwa [div_le_iff₀ hLp]
  have hq0 : 0 < D / L := div_pos hpos hLp
  have m1 := le_max_left e' 0
  have m2 := le_max_right e' 0
  refine ⟨max e' 0 + D / L, ?_, ?_, by linarith, by linarith, by linarith, ?_, ?_⟩
  · simp only [div_fin _ hL0, add_fin]
  · simp only [div_fin _ hL0, add_fin, ray_at_cv]
  · exact Fl.le_trans e5 (by rw [le_fin]; simp; linarith)
  · exact Fl.le_trans (by rw [le_fin]; simp; linarith) e6

/-- C73: when the boundary is met twice and the whole stretch between lies in the range, the ray scatters exactly when the
random number is at least `exp (-k L)`, `L` being the length of the stretch: for a uniform number that is the
probability `1 - exp (-k L)` of the Beer-Lambert law. -/
theorem C73_beer_lambert [F.Exact] (b : Hittable (Fl F)) {k ξ : ℝ} (hk : 0 < k) (h0 : 0 ≤ ξ) (h1 : ξ < 1) (o d : Fin 3 → ℝ)
    {tmin tmax : Fl F} (hmin : isNaN tmin = false) (hmax : isNaN tmax = false) (rec1 rec2 rec : HitRecord (Fl F)) {e x : ℝ}
    (b1 : (b.hit ⟨cv o, cv d⟩ (-inf) inf rec1).1 = true) (he : (b.hit ⟨cv o, cv d⟩ (-inf) inf rec1).2.t = fin e)
    (b2 : (b.hit ⟨cv o, cv d⟩ (fin e + 100 * eps) inf rec2).1 = true)
    (hx : (b.hit ⟨cv o, cv d⟩ (fin e + 100 * eps) inf rec2).2.t = fin x)
    (hex : e < x) (he0 : 0 ≤ e) (he1 : InRange (tmin, tmax) e) (hx1 : InRange (tmin, tmax) x) :
    ((ConstantMedium.make b (fin k)).hit (fin ξ) rec1 rec2 ⟨cv o, cv d⟩ tmin tmax rec).1 = true ↔
      Real.exp (-(k * ((x - e) * Real.sqrt (d ⬝ᵥ d)))) ≤ ξ := by
  have hf : (ConstantMedium.make b (fin k)).hit (fin ξ) rec1 rec2 ⟨cv o, cv d⟩ tmin tmax rec =
      (ConstantMedium.make b (fin k)).finish (fin ξ) ⟨cv o, cv d⟩ tmin tmax (fin e) (fin x) rec := by
    unfold ConstantMedium.hit
    simp only [ConstantMedium.make, b1, he, b2, hx, if_true]
  rw [hf]
  have e1 : (if lt (fin e) tmin then tmin else fin e) = fin e := by
    rw [if_neg]
    rw [Fl.not_lt_of_le he1.1]
    simp
  have e2 : (if gt (fin x) tmax then tmax else fin x) = fin x := by
    rw [if_neg]
    rw [gt, Fl.not_lt_of_le hx1.2]
    simp
  rw [ConstantMedium.finish_eq e1 e2 hex, max_eq_left he0]
  rcases ConstantMedium.dist_cases b hk h0 h1 with ⟨rfl, hd⟩ | ⟨hξ, hd, hpos⟩
  · rw [hd]
    simpa [gt] using Real.exp_pos _
  · rw [hd]
    have : gt (fin (-Real.log ξ / k) : Fl F) (fin ((x - e) * Real.sqrt (d ⬝ᵥ d))) =
        decide ((x - e) * Real.sqrt (d ⬝ᵥ d) < -Real.log ξ / k) := by simp [gt]
    rw [this, ← Real.le_log_iff_exp_le hξ]
    have hiff : (x - e) * Real.sqrt (d ⬝ᵥ d) < -Real.log ξ / k ↔ ¬ -(k * ((x - e) * Real.sqrt (d ⬝ᵥ d))) ≤ Real.log ξ := by
      rw [lt_div_iff₀ hk, not_le]
      constructor <;> intro h <;> linarith
    by_cases hc : (x - e) * Real.sqrt (d ⬝ᵥ d) < -Real.log ξ / k
    · simp [hc, hiff.mp hc]
    · simp [hc, not_not.mp (fun h => hc (hiff.mpr h))]

/-- C73: a medium of zero density never scatters. The hypothesis is IEEE's rule for `-1` over positive zero. -/
theorem C73_zero_density [F.Exact] (b : Hittable (Fl F)) {ξ : ℝ} (h0 : 0 ≤ ξ) (h1 : ξ < 1) (o d : Fin 3 → ℝ)
    (hz : (-1 : Fl F) / 0 = ninf) {tmin tmax : Fl F} (hmin : isNaN tmin = false) (hmax : isNaN tmax = false)
    (rec1 rec2 rec : HitRecord (Fl F)) {e x : ℝ} (he : (b.hit ⟨cv o, cv d⟩ (-inf) inf rec1).2.t = fin e)
    (hx : (b.hit ⟨cv o, cv d⟩ (fin e + 100 * eps) inf rec2).2.t = fin x) :
    (ConstantMedium.make b 0).hit (fin ξ) rec1 rec2 ⟨cv o, cv d⟩ tmin tmax rec = (false, rec) := by
  have fin_miss : ConstantMedium.finish (ConstantMedium.make b 0) (fin ξ) ⟨cv o, cv d⟩ tmin tmax (fin e) (fin x) rec = (false, rec) := by
    by_cases hge : ge (if lt (fin e) tmin then tmin else fin e) (if gt (fin x) tmax then tmax else fin x) = true
    · unfold ConstantMedium.finish
      simp only [hge, if_true]
    · rw [Bool.not_eq_true] at hge
      obtain ⟨e', x', e1, e2, e3, e4, e5, e6, e7, -, -⟩ := ConstantMedium.clip hmin hmax e x hge
      rw [ConstantMedium.finish_eq e1 e2 e7]
      have hd : (ConstantMedium.make b (0 : Fl F)).negInvDensity * log (fin ξ) = pinf := by
        rw [show (ConstantMedium.make b (0 : Fl F)).negInvDensity = ninf from hz]
        rcases h0.eq_or_lt with rfl | h
        · simp
        · have := Real.log_neg h h1
          rw [log_fin h, ninf_mul_fin, if_neg this.ne, infOf_pos (by linarith)]
      rw [hd]
      simp [gt]
  unfold ConstantMedium.hit
  change (if (b.hit _ _ _ _).1 = true then _ else _) = _
  by_cases b1 : (b.hit ⟨cv o, cv d⟩ (-inf) inf rec1).1 = true
  · by_cases b2 : (b.hit ⟨cv o, cv d⟩ (fin e + 100 * eps) inf rec2).1 = true
    · simp only [ConstantMedium.make, b1, he, b2, hx, if_true] at fin_miss ⊢
      exact fin_miss
    · simp only [ConstantMedium.make, b1, he, b2, if_true, if_false, Bool.false_eq_true]
  · simp only [ConstantMedium.make, b1, if_false, Bool.false_eq_true]

/-- C73: in a medium bounded by a sphere every scattering point lies in the ball. -/
theorem C73_sphere [F.Exact] (c : Fin 3 → ℝ) (R : ℝ) (b : Hittable (Fl F)) (hb : b.hit = (Sphere.ofReal c R).hit) {k ξ : ℝ}
    (hk : 0 < k) (h0 : 0 ≤ ξ) (h1 : ξ < 1) (o d : Fin 3 → ℝ) (hd : F.tiny < d ⬝ᵥ d)
    (hw : (o - c) ⬝ᵥ d = 0 ∨ F.tiny < |2 * ((o - c) ⬝ᵥ d)|) {tmin tmax : Fl F} (hmin : isNaN tmin = false)
    (hmax : isNaN tmax = false) (rec1 rec2 rec : HitRecord (Fl F))
    (hit : ((ConstantMedium.make b (fin k)).hit (fin ξ) rec1 rec2 ⟨cv o, cv d⟩ tmin tmax rec).1 = true) :
    ∃ p : Fin 3 → ℝ, ((ConstantMedium.make b (fin k)).hit (fin ξ) rec1 rec2 ⟨cv o, cv d⟩ tmin tmax rec).2.p = cv p ∧
      (p 0 - c 0) ^ 2 + (p 1 - c 1) ^ 2 + (p 2 - c 2) ^ 2 ≤ R ^ 2 := by
  obtain ⟨b1, b2, -⟩ := ConstantMedium.hit_true hit
  change (b.hit ⟨cv o, cv d⟩ (-inf) inf rec1).1 = true at b1
  change (b.hit ⟨cv o, cv d⟩ ((b.hit ⟨cv o, cv d⟩ (-inf) inf rec1).2.t + 100 * eps) inf rec2).1 = true at b2
  have n1 := C46_nearest_partial (F := F) c R o d (-inf) hd hw inf rec1 rfl
  rw [← hb] at n1
  obtain ⟨e, he, -, -, hes, -⟩ := n1.2 b1
  rw [he] at b2
  have n2 := C46_nearest_partial (F := F) c R o d (fin e + 100 * eps) hd hw inf rec2 rfl
  rw [← hb] at n2
  obtain ⟨x, hx, -, -, hxs, -⟩ := n2.2 b2
  obtain ⟨-, -, t, -, hp, t1, t2, -, -⟩ := C73_inside b hk h0 h1 o d hmin hmax rec1 rec2 rec he hx hit
  refine ⟨o + t • d, hp, ?_⟩
  simp only [sphereSet, Set.mem_setOf_eq, Pi.add_apply, Pi.smul_apply, smul_eq_mul] at hes hxs ⊢
  rcases (t1.trans t2).eq_or_lt with h | h
  · have : t = e := by linarith
    rw [this, hes]
  · have key : ((o 0 + t * d 0 - c 0) ^ 2 + (o 1 + t * d 1 - c 1) ^ 2 + (o 2 + t * d 2 - c 2) ^ 2 - R ^ 2) * (x - e) =
        -((t - e) * (x - t) * (d 0 ^ 2 + d 1 ^ 2 + d 2 ^ 2) * (x - e)) := by
      linear_combination (x - t) * hes + (t - e) * hxs
    have h3 : 0 ≤ (t - e) * (x - t) * (d 0 ^ 2 + d 1 ^ 2 + d 2 ^ 2) :=
      mul_nonneg (mul_nonneg (by linarith) (by linarith)) (by positivity)
    nlinarith

/-! ## C93 -/

/-- C93: a miss of the medium leaves the record as it was, in every arithmetic. -/
theorem C93_medium {R : Type} [Scalar R] (m : ConstantMedium R) (draw : R) (rec1 rec2 : HitRecord R) (r : Ray R) (tmin tmax : R)
    (rec : HitRecord R) (h : (m.hit draw rec1 rec2 r tmin tmax rec).1 = false) :
    (m.hit draw rec1 rec2 r tmin tmax rec).2 = rec := by
  unfold ConstantMedium.hit ConstantMedium.finish at h ⊢
  simp only at h ⊢
  repeat' split
  all_goals first | rfl | skip
  all_goals simp_all

/-! ## Concrete cases -/

/-- A glass ball of radius 1 about the origin seen from `(0,0,-3)`: the boundary is met at 2 and 4. -/
theorem mediumExample (b : Hittable (Fl exact64)) (hb : b.hit = (Sphere.ofReal (F := exact64) 0 1).hit) (rec1 rec2 : HitRecord (Fl exact64)) :
    (b.hit ⟨cv ![0, 0, -3], cv ![0, 0, 1]⟩ (-inf) inf rec1).1 = true ∧
    (b.hit ⟨cv ![0, 0, -3], cv ![0, 0, 1]⟩ (-inf) inf rec1).2.t = fin 2 ∧
    (b.hit ⟨cv ![0, 0, -3], cv ![0, 0, 1]⟩ (fin 2 + 100 * eps) inf rec2).1 = true ∧
    (b.hit ⟨cv ![0, 0, -3], cv ![0, 0, 1]⟩ (fin 2 + 100 * eps) inf rec2).2.t = fin 4 := by
  have hs : ∀ z : ℝ, (![0, 0, -3] : Fin 3 → ℝ) + z • ![0, 0, 1] ∈ sphereSet 0 1 ↔ z = 2 ∨ z = 4 := by
    intro z
    simp only [sphereSet, Set.mem_setOf_eq]
    simp
    constructor
    · intro h
      rcases h with h | h
      · right; linarith
      · left; linarith
    · rintro (rfl | rfl) <;> norm_num
  have hd : exact64.tiny < (![0, 0, 1] : Fin 3 → ℝ) ⬝ᵥ ![0, 0, 1] := by
    have := Fmt.Exact.tiny_lt (F := exact64)
    simpa [dotProduct, Fin.sum_univ_three] using this
  have hw : ((![0, 0, -3] : Fin 3 → ℝ) - 0) ⬝ᵥ ![0, 0, 1] = 0 ∨
      exact64.tiny < |2 * (((![0, 0, -3] : Fin 3 → ℝ) - 0) ⬝ᵥ ![0, 0, 1])| := by
    right
    have := Fmt.Exact.tiny_lt (F := exact64)
    simp [dotProduct, Fin.sum_univ_three]
    linarith
  have n1 := C46_nearest_partial (F := exact64) 0 1 ![0, 0, -3] ![0, 0, 1] (-inf) hd hw inf rec1 rfl
  have n2 := C46_nearest_partial (F := exact64) 0 1 ![0, 0, -3] ![0, 0, 1] (fin 2 + 100 * eps) hd hw inf rec2 rfl
  rw [← hb] at n1 n2
  have he : (fin 2 : Fl exact64) + 100 * eps = fin (2 + 100 * exact64.eps) := by simp [fl]
  have e0 := Fmt.Exact.eps_pos (F := exact64)
  have e1 : 100 * exact64.eps < 1 := by norm_num [exact64]
  have i1 : ∀ z : ℝ, InRange (-inf, (inf : Fl exact64)) z := fun z => by simp [InRange]
  have i2 : ∀ z : ℝ, InRange ((fin 2 : Fl exact64) + 100 * eps, inf) z ↔ 2 + 100 * exact64.eps ≤ z := fun z => by
    rw [he]; simp [InRange]
  have b1 := n1.1.mpr ⟨2, i1 2, (hs 2).mpr (Or.inl rfl)⟩
  have b2 := n2.1.mpr ⟨4, (i2 4).mpr (by linarith), (hs 4).mpr (Or.inr rfl)⟩
  obtain ⟨z, z1, -, -, z2, z3⟩ := n1.2 b1
  obtain ⟨y, y1, -, y0, y2, y3⟩ := n2.2 b2
  refine ⟨b1, ?_, b2, ?_⟩
  · rw [z1]
    rcases (hs z).mp z2 with h | h
    · rw [h]
    · have := z3 2 (i1 2) ((hs 2).mpr (Or.inl rfl)); linarith
  · rw [y1]
    rcases (hs y).mp y2 with h | h
    · have := (i2 y).mp y0; linarith
    · rw [h]

/-- It scatters there for density 1 and random number one half, since `exp (-2) ≤ 1/2`. -/
theorem mediumExample_hit (b : Hittable (Fl exact64)) (hb : b.hit = (Sphere.ofReal (F := exact64) 0 1).hit) (rec1 rec2 rec : HitRecord (Fl exact64)) :
    ((ConstantMedium.make b (fin 1)).hit (fin (1 / 2)) rec1 rec2 ⟨cv ![0, 0, -3], cv ![0, 0, 1]⟩ (fin 0) pinf rec).1 = true := by
  obtain ⟨b1, he, b2, hx⟩ := mediumExample b hb rec1 rec2
  rw [C73_beer_lambert b (by norm_num) (by norm_num) (by norm_num) _ _ rfl rfl rec1 rec2 rec b1 he b2 hx (by norm_num) (by norm_num)
    (by simp [InRange]) (by simp [InRange])]
  have h : (![0, 0, 1] : Fin 3 → ℝ) ⬝ᵥ ![0, 0, 1] = 1 := by simp [dotProduct, Fin.sum_univ_three]
  rw [h, Real.sqrt_one, Real.exp_neg]
  have := Real.add_one_le_exp (1 * ((4 - 2) * 1) : ℝ)
  calc (Real.exp (1 * ((4 - 2) * 1)))⁻¹ ≤ (2 : ℝ)⁻¹ := inv_anti₀ (by norm_num) (by linarith)
    _ = 1 / 2 := by norm_num

example (b : Hittable (Fl exact64)) (hb : b.hit = (Sphere.ofReal (F := exact64) 0 1).hit) (rec1 rec2 rec : HitRecord (Fl exact64)) :
    ∃ t : ℝ, ((ConstantMedium.make b (fin 1)).hit (fin (1 / 2)) rec1 rec2 ⟨cv ![0, 0, -3], cv ![0, 0, 1]⟩ (fin 0) pinf rec).2.t = fin t ∧
      2 ≤ t ∧ t ≤ 4 := by
  obtain ⟨b1, he, b2, hx⟩ := mediumExample b hb rec1 rec2
  obtain ⟨-, -, t, h, -, h1, h2, -⟩ := C73_inside b (by norm_num) (by norm_num) (by norm_num) _ _ rfl rfl rec1 rec2 rec he hx (mediumExample_hit b hb rec1 rec2 rec)
  exact ⟨t, h, h1, h2⟩

example (b : Hittable (Fl exact64)) (hb : b.hit = (Sphere.ofReal (F := exact64) 0 1).hit) (rec1 rec2 rec : HitRecord (Fl exact64)) :
    ∃ p : Fin 3 → ℝ, ((ConstantMedium.make b (fin 1)).hit (fin (1 / 2)) rec1 rec2 ⟨cv ![0, 0, -3], cv ![0, 0, 1]⟩ (fin 0) pinf rec).2.p = cv p ∧
      (p 0 - 0) ^ 2 + (p 1 - 0) ^ 2 + (p 2 - 0) ^ 2 ≤ 1 ^ 2 := by
  refine C73_sphere 0 1 b hb (by norm_num) (by norm_num) (by norm_num) _ _ ?_ (Or.inr ?_) rfl rfl rec1 rec2 rec (mediumExample_hit b hb rec1 rec2 rec)
  · simpa [dotProduct, Fin.sum_univ_three] using Fmt.Exact.tiny_lt (F := exact64)
  · have := Fmt.Exact.tiny_lt (F := exact64)
    simp [dotProduct, Fin.sum_univ_three]; linarith

/-- The hypothesis of `C73_zero_density` holds in a format with positive zeros. -/
theorem neg_one_div_zero_exact64 : (-1 : Fl exact64) / 0 = ninf := by
  have : (-1 : Fl exact64) / 0 = (fin (-1) : Fl exact64) / fin 0 := by simp only [ofNat_one, ofNat_zero, Fl.neg_fin]
  rw [this, fin_div_zero (by norm_num), if_neg (by simp [exact64])]

/-- A boundary met at 1 and 3, with density zero, in exact64. -/
example (rec rec1 rec2 : HitRecord (Fl exact64)) :
    (ConstantMedium.make ⟨fun _ tmin _ rec => (true, { rec with t := if lt tmin (fin 1) then fin 1 else fin 3 }), (false, ⟨cv 0, cv 0⟩)⟩ 0).hit
      (fin (1 / 2)) rec1 rec2 ⟨cv 0, cv ![0, 0, 1]⟩ (fin 0) pinf rec = (false, rec) := by
  have e0 := Fmt.Exact.eps_pos (F := exact64)
  refine C73_zero_density (e := 1) (x := 3) _ (by norm_num) (by norm_num) _ _ neg_one_div_zero_exact64 rfl rfl rec1 rec2 rec ?_ ?_
  · simp
  · have : (fin 1 : Fl exact64) + 100 * eps = fin (1 + 100 * exact64.eps) := by simp [fl]
    simp only [this, lt_fin]
    rw [if_neg]
    simp; linarith

end DRT
