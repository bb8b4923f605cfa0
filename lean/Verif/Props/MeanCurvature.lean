import Verif.Props.Normals

/-! # C138: the sign of the recorded mean and principal curvatures -/

namespace DRT
open Scalar Fl Matrix

variable {F : Fmt}

/-- The principal curvatures from the mean and the gaussian curvature. -/
theorem HitRecord.principal_of [F.Exact] {rec : HitRecord (Fl F)} {k1 k2 : ℝ} (hle : k1 ≤ k2) (hH : rec.meanCurvature = fin ((k1 + k2) / 2))
    (hK : rec.gaussianCurvature = fin (k1 * k2)) (hw : k1 + k2 = 0 ∨ F.tiny < |k1 + k2|) : rec.principalCurvatures = (fin k1, fin k2) := by
  unfold HitRecord.principalCurvatures
  have hb : (-2 : Fl F) * fin ((k1 + k2) / 2) = fin (-(k1 + k2)) := by
    have : (-2 : Fl F) = fin (-2) := by rw [ofNat_def]; simp
    rw [this, mul_fin, fin_inj]; ring
  rw [hH, hK, hb, ofNat_one]
  have hw' : -(k1 + k2) = 0 ∨ F.tiny < |-(k1 + k2)| := by rwa [neg_eq_zero, abs_neg]
  rcases quadraticRoots_spec (F := F) 1 (-(k1 + k2)) (k1 * k2) (Or.inr (by rw [abs_one]; exact Fmt.Exact.tiny_lt)) (Or.inr hw')
    (fun h => one_ne_zero h.1) with ⟨-, h⟩ | ⟨x, y, hxy, h, hv, hz⟩
  · exact absurd (by ring) (h k1)
  · rw [h]
    obtain ⟨e1, e2⟩ := hv one_ne_zero
    have h1 := (hz k1).mp (by ring)
    have h2 := (hz k2).mp (by ring)
    simp only [Prod.mk.injEq, fin_inj]
    rcases h1 with h1 | h1 <;> rcases h2 with h2 | h2 <;> constructor <;> linarith

/-- The mean curvature from the six numbers of the record. -/
theorem HitRecord.mean_of [F.Exact] {rec : HitRecord (Fl F)} {E Fm G e f g : ℝ} (hE : rec.E = fin E) (hF : rec.F = fin Fm) (hG : rec.G = fin G)
    (he : rec.e = fin e) (hf : rec.f = fin f) (hg : rec.g = fin g) (h : E * G - Fm * Fm ≠ 0) :
    rec.meanCurvature = fin ((e * G - 2 * f * Fm + g * E) / (2 * (E * G - Fm * Fm))) := by
  unfold HitRecord.meanCurvature
  rw [hE, hF, hG, he, hf, hg]
  simp only [fl, Nat.cast_ofNat]
  rw [div_fin _ (mul_ne_zero two_ne_zero h)]

/-- C138: both principal curvatures of a sphere and its mean curvature are `1 / R`, whichever side the ray comes from. Missing: the
poles, where they are not numbers, and radii above `2 / tiny`, where the principal curvatures are not. -/
theorem C138_sphere_partial [F.Exact] (c : Fin 3 → ℝ) (R : ℝ) (hR : 0 < R) (hw : F.tiny < 2 / R) (o d : Fin 3 → ℝ) (tmin tmax : Fl F)
    (rec rec' : HitRecord (Fl F)) (p : Fin 3 → ℝ) (hp : p ∈ sphereSet c R) (hpole : p 0 ≠ c 0 ∨ p 1 ≠ c 1)
    (h : (Sphere.ofReal c R).hit ⟨cv o, cv d⟩ tmin tmax rec = (true, rec')) (hrp : rec'.p = cv p) :
    rec'.meanCurvature = fin (1 / R) ∧ rec'.principalCurvatures = (fin (1 / R), fin (1 / R)) := by
  have h1 : ((Sphere.ofReal c R).hit ⟨cv o, cv d⟩ tmin tmax rec).2 = rec' := by rw [h]
  obtain ⟨hK, hH⟩ := C49_curvature c R hR o d tmin tmax rec p hp hpole (by rw [h]) (by rw [h1]; exact hrp)
  rw [h1] at hK hH
  have e : 1 / R + 1 / R = 2 / R := by ring
  refine ⟨hH, HitRecord.principal_of le_rfl (by rw [hH]; congr 1; ring) (by rw [hK]; congr 1; ring) (Or.inr ?_)⟩
  rw [e, abs_of_pos (by positivity)]; exact hw

/-- C138: the principal curvatures of a cylinder are `0` and `1 / r`, whichever side the ray comes from. -/
theorem C138_cylinder_partial [F.Exact] (r z0 z1 : ℝ) (hr : 0 < r) (hz : z0 < z1) (hw : F.tiny < 1 / r) (ry : Ray (Fl F)) (tmin tmax : Fl F)
    (rec rec' : HitRecord (Fl F)) (h : (Cylinder.ofReal r z0 z1).hit ry tmin tmax rec = (true, rec')) :
    rec'.meanCurvature = fin (1 / (2 * r)) ∧ rec'.principalCurvatures = (fin 0, fin (1 / r)) := by
  obtain ⟨-, hK, hH⟩ := C66_forms r z0 z1 hr hz ry tmin tmax rec rec' h 0 0
  refine ⟨hH, HitRecord.principal_of (by positivity) (by rw [hH]; congr 1; field_simp; ring) (by rw [hK]; congr 1; ring) (Or.inr ?_)⟩
  rw [zero_add, abs_of_pos (by positivity)]; exact hw

/-- The mean curvature of an ellipsoid at `p`: its sign is that of a convex body whose normal points inwards. -/
noncomputable def ellipsoidMean (c s p : Fin 3 → ℝ) : ℝ :=
  (s 0 ^ 2 + s 1 ^ 2 + s 2 ^ 2 - ((p 0 - c 0) ^ 2 + (p 1 - c 1) ^ 2 + (p 2 - c 2) ^ 2)) /
    (2 * (s 0 * s 1 * s 2) ^ 2 * Real.sqrt ((p 0 - c 0) ^ 2 / s 0 ^ 4 + (p 1 - c 1) ^ 2 / s 1 ^ 4 + (p 2 - c 2) ^ 2 / s 2 ^ 4) ^ 3)

/-- C138: the mean curvature of an ellipsoid by the classical formula; it is positive. Missing: the poles. -/
theorem C138_ellipsoid_partial [F.Exact] (c s : Fin 3 → ℝ) (hs : ∀ i, 0 < s i) (o d : Fin 3 → ℝ) (tmin tmax : Fl F)
    (rec rec' : HitRecord (Fl F)) (p : Fin 3 → ℝ) (hp : p ∈ ellipsoidSet c s) (hpole : p 0 ≠ c 0 ∨ p 1 ≠ c 1)
    (h : (Ellipsoid.ofReal c s).hit ⟨cv o, cv d⟩ tmin tmax rec = (true, rec')) (hrp : rec'.p = cv p) :
    rec'.meanCurvature = fin (ellipsoidMean c s p) ∧ 0 < ellipsoidMean c s p := by
  have hrec' : ((Ellipsoid.ofReal c s).hit ⟨cv o, cv d⟩ tmin tmax rec).2 = rec' := by rw [h]
  obtain ⟨-, -, -, u, v, hu, hv, -, -, -, -, hpt⟩ := C52_record c s hs o d tmin tmax rec p hp (by rw [h]) (by rw [hrec']; exact hrp)
  rw [hrec'] at hu hv hpt
  have hpt' : ellipsoidPoint c s u v = p := by
    have := hpt
    rw [hu, hv, Ellipsoid.eval_fin, hrp] at this
    exact cv_inj.mp this
  have hs2 : Real.sin (Real.pi * v) ≠ 0 := by
    intro h0
    rw [← hpt'] at hpole
    simp [ellipsoidPoint, h0] at hpole
  have hrec : rec' = (Ellipsoid.ofReal c s : Ellipsoid (Fl F)).record ⟨cv o, cv d⟩ rec'.t rec := by
    have := Ellipsoid.hit_true (s := Ellipsoid.ofReal c s) (r := ⟨cv o, cv d⟩) (tmin := tmin) (tmax := tmax) (rec := rec) (by rw [h])
    rwa [hrec'] at this
  obtain ⟨hRE, hRF, hRG, hRe, hRf, hRg⟩ := Ellipsoid.record_forms (F := F) c hs ⟨cv o, cv d⟩ rec'.t rec (u := u) (v := v)
    (by rw [← hrec]; exact hu) (by rw [← hrec]; exact hv)
  rw [← hrec] at hRE hRF hRG hRe hRf hRg
  have hDp := ellipsoidDenom_pos hs u v
  have h0 := hs 0; have h1 := hs 1; have h2 := hs 2
  have hpi := Real.pi_pos
  have t1 := Real.sin_sq_add_cos_sq (2 * Real.pi * u)
  have t2 := Real.sin_sq_add_cos_sq (Real.pi * v)
  have q0 : p 0 - c 0 = s 0 * (Real.cos (2 * Real.pi * u) * Real.sin (Real.pi * v)) := by rw [← hpt']; show c 0 + _ - c 0 = _; ring
  have q1 : p 1 - c 1 = s 1 * (Real.sin (2 * Real.pi * u) * Real.sin (Real.pi * v)) := by rw [← hpt']; show c 1 + _ - c 1 = _; ring
  have q2 : p 2 - c 2 = s 2 * Real.cos (Real.pi * v) := by rw [← hpt']; show c 2 + _ - c 2 = _; ring
  have hsq : Real.sqrt ((p 0 - c 0) ^ 2 / s 0 ^ 4 + (p 1 - c 1) ^ 2 / s 1 ^ 4 + (p 2 - c 2) ^ 2 / s 2 ^ 4) =
      Real.sqrt (ellipsoidDenom s u v) / (s 0 * s 1 * s 2) := by
    rw [← Real.sqrt_sq (by positivity : 0 ≤ s 0 * s 1 * s 2), ← Real.sqrt_div hDp.le, q0, q1, q2]
    congr 1
    unfold ellipsoidDenom
    field_simp
    ring
  have hD := Real.mul_self_sqrt hDp.le
  have hD0 := Real.sqrt_pos.mpr hDp
  have key : 4 * Real.pi * Real.pi * Real.sin (Real.pi * v) * Real.sin (Real.pi * v) *
      (s 0 * s 0 * Real.sin (2 * Real.pi * u) * Real.sin (2 * Real.pi * u) + s 1 * s 1 * Real.cos (2 * Real.pi * u) * Real.cos (2 * Real.pi * u)) *
      (Real.pi * Real.pi * (s 0 * s 0 * Real.cos (Real.pi * v) * Real.cos (Real.pi * v) * Real.cos (2 * Real.pi * u) * Real.cos (2 * Real.pi * u) +
        s 1 * s 1 * Real.sin (2 * Real.pi * u) * Real.sin (2 * Real.pi * u) * Real.cos (Real.pi * v) * Real.cos (Real.pi * v) +
        s 2 * s 2 * Real.sin (Real.pi * v) * Real.sin (Real.pi * v))) -
      2 * Real.pi * Real.pi * Real.cos (2 * Real.pi * u) * Real.sin (2 * Real.pi * u) * Real.cos (Real.pi * v) * Real.sin (Real.pi * v) * (s 1 * s 1 - s 0 * s 0) *
      (2 * Real.pi * Real.pi * Real.cos (2 * Real.pi * u) * Real.sin (2 * Real.pi * u) * Real.cos (Real.pi * v) * Real.sin (Real.pi * v) * (s 1 * s 1 - s 0 * s 0)) =
      4 * Real.pi ^ 4 * Real.sin (Real.pi * v) ^ 2 * ellipsoidDenom s u v := by
    unfold ellipsoidDenom
    generalize Real.sin (2 * Real.pi * u) = s1 at t1 ⊢
    generalize Real.cos (2 * Real.pi * u) = k1 at t1 ⊢
    generalize Real.sin (Real.pi * v) = s2
    generalize Real.cos (Real.pi * v) = k2
    linear_combination (4 * Real.pi ^ 4 * s2 ^ 2 * s 0 ^ 2 * s 1 ^ 2 * k2 ^ 2 * (s1 ^ 2 + k1 ^ 2 + 1)) * t1
  have hM := HitRecord.mean_of hRE hRF hRG hRe hRf hRg (by rw [key]; have := hDp.ne'; positivity)
  rw [key, ← hD] at hM
  rw [hM, fin_inj]
  unfold ellipsoidMean
  rw [hsq, q0, q1, q2]
  clear hRE hRF hRG hRe hRf hRg hrec hpt hpt' hu hv hsq q0 q1 q2 hM key hpole hp h hrp hrec' hD
  generalize Real.sqrt (ellipsoidDenom s u v) = D at hD0 ⊢
  generalize Real.sin (2 * Real.pi * u) = s1 at t1 ⊢
  generalize Real.cos (2 * Real.pi * u) = k1 at t1 ⊢
  generalize Real.sin (Real.pi * v) = s2 at t2 hs2 ⊢
  generalize Real.cos (Real.pi * v) = k2 at t2 ⊢
  generalize s 0 = a at *
  generalize s 1 = b at *
  generalize s 2 = g at *
  have hnum : a ^ 2 + b ^ 2 + g ^ 2 - ((a * (k1 * s2)) ^ 2 + (b * (s1 * s2)) ^ 2 + (g * k2) ^ 2) =
      a ^ 2 * (s1 ^ 2 + k1 ^ 2 * k2 ^ 2) + b ^ 2 * (k1 ^ 2 + s1 ^ 2 * k2 ^ 2) + g ^ 2 * s2 ^ 2 := by
    linear_combination (-a ^ 2 - b ^ 2) * t1 - (a ^ 2 * k1 ^ 2 + b ^ 2 * s1 ^ 2 + g ^ 2) * t2
  rw [hnum]
  constructor
  · simp only [Real.sqrt_mul_self hD0.le]
    field_simp
    ring
  · have : 0 < g ^ 2 * s2 ^ 2 := by positivity
    positivity

/-- The mean curvature of a torus at the distance `ρ` from its axis, for the outward normal. -/
noncomputable def torusMean (R r ρ : ℝ) : ℝ := -((2 * ρ - R) / (2 * r * ρ))

theorem Torus.mean_fin [F.Exact] (c : Fin 3 → ℝ) (R r : ℝ) (hr : 0 < r) (hR : r < R) (o d : Fin 3 → ℝ) (tmin tmax : Fl F)
    (rec rec' : HitRecord (Fl F)) (p : Fin 3 → ℝ) (hp : p ∈ torusSet c R r)
    (h : (Torus.ofReal c R r).hit ⟨cv o, cv d⟩ tmin tmax rec = (true, rec')) (hrp : rec'.p = cv p) :
    ∃ ρ : ℝ, ρ = Real.sqrt ((p 0 - c 0) ^ 2 + (p 1 - c 1) ^ 2) ∧ 0 < ρ ∧ rec'.meanCurvature = fin (torusMean R r ρ) ∧
      rec'.gaussianCurvature = fin ((ρ - R) / (r ^ 2 * ρ)) := by
  obtain ⟨t, rfl⟩ := Torus.hit_true h
  have hp' : (Torus.ofReal c R r : Torus (Fl F)).refine ((Ray.mk (cv o) (cv d) : Ray (Fl F)).at t) (cv d) = cv p := hrp
  obtain ⟨a, b, rfl⟩ := hp
  obtain ⟨u, v, huv, hu0, hu1, hv0, hv1, g1, g2, g3, g4⟩ := Torus.getUV_spec (F := F) c hr hR a b
  have hb := abs_le.mp (Real.abs_cos_le_one b)
  have hq : 0 < R + r * Real.cos b := by nlinarith
  have hR0 : 0 < R := by linarith
  have hpi := Real.pi_pos
  have hk : 0 < 8 * R * r * (R + r * Real.cos b) := by positivity
  have hnn : Vec.norm (cv ((8 * R * r * (R + r * Real.cos b)) • torusNormal a b) : Vec (Fl F) 3) = fin (8 * R * r * (R + r * Real.cos b)) := by
    simp only [fl]
    rw [smul_dotProduct, dotProduct_smul, torusNormal_unit, smul_eq_mul, smul_eq_mul, mul_one, Real.sqrt_mul_self hk.le]
  have hgn : (Torus.ofReal c R r : Torus (Fl F)).gradient (cv (torusAt c R r a b)) /.
      Vec.norm ((Torus.ofReal c R r : Torus (Fl F)).gradient (cv (torusAt c R r a b))) = cv (torusNormal a b) := by
    rw [Torus.gradient_fin, hnn, cv_sdiv hk.ne', smul_smul, inv_mul_cancel₀ hk.ne', one_smul]
  obtain ⟨m, hm, hdm, hmm, hff⟩ := C37_opposes (F := F)
    { rec with t := t, p := cv (torusAt c R r a b), gradMag := Vec.norm ((Torus.ofReal c R r : Torus (Fl F)).gradient (cv (torusAt c R r a b))) }
    o d (torusNormal a b)
  obtain ⟨rc, hrc⟩ : ∃ rc, rc = (Torus.ofReal c R r).complete ⟨cv o, cv d⟩ { rec with t := t } := ⟨_, rfl⟩
  have hcomp : rc = (Torus.ofReal c R r : Torus (Fl F)).setForms
      { HitRecord.setFaceNormal { rec with t := t, p := cv (torusAt c R r a b), gradMag := Vec.norm ((Torus.ofReal c R r : Torus (Fl F)).gradient (cv (torusAt c R r a b))) }
        ⟨cv o, cv d⟩ (cv (torusNormal a b)) with u := fin u, v := fin v } := by
    rw [hrc]
    unfold Torus.complete
    dsimp only
    rw [hp', huv, hgn]
  rw [← hrc]
  have hE : rc.E = fin (4 * Real.pi * Real.pi * (R + r * Real.cos b) * (R + r * Real.cos b)) := by
    have : rc.E = (4 : Fl F) * pi * pi * (fin R + fin r * cos (2 * pi * fin v)) * (fin R + fin r * cos (2 * pi * fin v)) := by rw [hcomp]; rfl
    rw [this]; simp only [fl, Nat.cast_ofNat, g3]
  have hF : rc.F = fin 0 := by rw [hcomp, ← ofNat_zero]; rfl
  have hG : rc.G = fin (4 * Real.pi * Real.pi * r * r) := by
    have : rc.G = (4 : Fl F) * pi * pi * fin r * fin r := by rw [hcomp]; rfl
    rw [this]; simp only [fl, Nat.cast_ofNat]
  have he : rc.e = fin (-4 * Real.pi * Real.pi * (R + r * Real.cos b) * Real.cos b) := by
    have : rc.e = (-4 : Fl F) * pi * pi * (fin R + fin r * cos (2 * pi * fin v)) * cos (2 * pi * fin v) := by rw [hcomp]; rfl
    rw [this]; simp only [fl, Nat.cast_ofNat, g3]
  have hf : rc.f = fin 0 := by rw [hcomp, ← ofNat_zero]; rfl
  have hg : rc.g = fin (-4 * Real.pi * Real.pi * r) := by
    have : rc.g = (-4 : Fl F) * pi * pi * fin r := by rw [hcomp]; rfl
    rw [this]; simp only [fl, Nat.cast_ofNat]
  have hden : 4 * Real.pi * Real.pi * (R + r * Real.cos b) * (R + r * Real.cos b) * (4 * Real.pi * Real.pi * r * r) - 0 * 0 ≠ 0 := by
    rw [mul_zero, sub_zero]; positivity
  have hH := HitRecord.mean_of hE hF hG he hf hg hden
  have hρ : R + r * Real.cos b = Real.sqrt ((torusAt c R r a b 0 - c 0) ^ 2 + (torusAt c R r a b 1 - c 1) ^ 2) := by
    rw [show (torusAt c R r a b 0 - c 0) ^ 2 + (torusAt c R r a b 1 - c 1) ^ 2 = (R + r * Real.cos b) ^ 2 by
      show (c 0 + _ - c 0) ^ 2 + (c 1 + _ - c 1) ^ 2 = _
      linear_combination (R + r * Real.cos b) ^ 2 * Real.sin_sq_add_cos_sq a]
    exact (Real.sqrt_sq hq.le).symm
  refine ⟨R + r * Real.cos b, hρ, hq, ?_, ?_⟩
  · rw [hH, fin_inj]
    unfold torusMean
    generalize Real.cos b = k at hq ⊢
    have hq' := hq.ne'
    simp only [mul_zero, sub_zero]
    field_simp
    ring
  · unfold HitRecord.gaussianCurvature
    rw [hE, hF, hG, he, hf, hg]
    simp only [fl]
    rw [div_fin _ hden, fin_inj]
    generalize Real.cos b = k at hq ⊢
    have hq' := hq.ne'
    rw [mul_zero, sub_zero, sub_zero]
    field_simp
    ring

/-- C138, refuted for the torus: its principal curvatures are recorded for the outward normal, so `-1 / r` is the first of them on a tube
of radius `r` and the mean curvature is negative wherever the distance from the axis is more than `R / 2`. On a sphere, an ellipsoid and a cylinder
(`C138_sphere_partial`, `C138_ellipsoid_partial`, `C138_cylinder_partial`) they are recorded for the inward normal. -/
theorem C138_torus_false [F.Exact] (c : Fin 3 → ℝ) (R r : ℝ) (hr : 0 < r) (hR : r < R) (o d : Fin 3 → ℝ) (tmin tmax : Fl F)
    (rec rec' : HitRecord (Fl F)) (p : Fin 3 → ℝ) (hp : p ∈ torusSet c R r)
    (h : (Torus.ofReal c R r).hit ⟨cv o, cv d⟩ tmin tmax rec = (true, rec')) (hrp : rec'.p = cv p) :
    let ρ := Real.sqrt ((p 0 - c 0) ^ 2 + (p 1 - c 1) ^ 2)
    rec'.meanCurvature = fin (torusMean R r ρ) ∧ (R / 2 < ρ → torusMean R r ρ < 0) ∧
      (2 * ρ = R ∨ F.tiny < |2 * ρ - R| / (r * ρ) → rec'.principalCurvatures = (fin (-(1 / r)), fin ((R - ρ) / (r * ρ)))) := by
  intro ρ
  obtain ⟨ρ', e, h0, hH, hK⟩ := Torus.mean_fin c R r hr hR o d tmin tmax rec rec' p hp h hrp
  obtain rfl : ρ' = ρ := e
  clear_value ρ
  refine ⟨hH, fun h => ?_, fun hw => HitRecord.principal_of ?_ ?_ ?_ ?_⟩
  · exact neg_neg_of_pos (div_pos (by linarith) (by positivity))
  · rw [← sub_nonneg, show (R - ρ) / (r * ρ) - -(1 / r) = R / (r * ρ) by field_simp; ring]
    have : 0 < R := hr.trans hR
    positivity
  · rw [hH]; congr 1; unfold torusMean; field_simp; ring
  · rw [hK]; congr 1; field_simp; ring
  · have e : -(1 / r) + (R - ρ) / (r * ρ) = -((2 * ρ - R) / (r * ρ)) := by field_simp; ring
    rw [e, abs_neg, abs_div, abs_of_pos (by positivity : 0 < r * ρ)]
    rcases hw with hw | hw
    · left; rw [hw]; simp
    · right; exact hw

/-- A sphere seen from inside. -/
example (rec : HitRecord (Fl exact0)) : ∃ rec', (Sphere.ofReal (F := exact0) 0 2).hit ⟨cv 0, cv ![1, 0, 0]⟩ (fin 0) pinf rec = (true, rec') ∧
    rec'.meanCurvature = fin (1 / 2) ∧ rec'.principalCurvatures = (fin (1 / 2), fin (1 / 2)) := by
  have hN := C46_nearest_ideal (F := exact0) rfl 0 2 0 ![1, 0, 0] (fin 0) (by simp)
  have h1 := (hN pinf rec rfl).1.mpr ⟨2, ⟨by rw [le_fin]; norm_num, rfl⟩, by simp [sphereSet]⟩
  obtain ⟨w, hw, hp, -, hS, -⟩ := (hN pinf rec rfl).2 h1
  refine ⟨_, Prod.ext h1 rfl, C138_sphere_partial (F := exact0) 0 2 two_pos (by show (0:ℝ) < _; norm_num) 0 ![1, 0, 0] (fin 0) pinf rec _ _ hS ?_
    (Prod.ext h1 rfl) hp⟩
  left
  simp only [sphereSet, Set.mem_ofPred_eq] at hS
  simp at hS ⊢
  rintro rfl
  norm_num at hS

/-- An ellipsoid seen from outside, at the end of its first axis. -/
example (rec : HitRecord (Fl exact0)) :
    ∃ rec' p, (Ellipsoid.ofReal (F := exact0) 0 ![1, 2, 3]).hit ⟨cv ![-5, 0, 0], cv ![1, 0, 0]⟩ (fin 0) pinf rec = (true, rec') ∧
    rec'.p = cv p ∧ rec'.meanCurvature = fin (ellipsoidMean 0 ![1, 2, 3] p) ∧ 0 < ellipsoidMean 0 ![1, 2, 3] p := by
  have hs : ∀ i, 0 < (![1, 2, 3] : Fin 3 → ℝ) i := by intro i; fin_cases i <;> norm_num
  have hN := C51_nearest_ideal (F := exact0) rfl 0 ![1, 2, 3] (fun i => (hs i).ne') ![-5, 0, 0] ![1, 0, 0] (fin 0) (by simp)
  have h1 := (hN pinf rec rfl).1.mpr ⟨4, ⟨by rw [le_fin]; norm_num, rfl⟩, by simp [ellipsoidSet]; norm_num⟩
  obtain ⟨w, hw, hp, -, hS, -⟩ := (hN pinf rec rfl).2 h1
  refine ⟨_, _, Prod.ext h1 rfl, hp, C138_ellipsoid_partial (F := exact0) 0 ![1, 2, 3] hs _ _ (fin 0) pinf rec _ _ hS ?_ (Prod.ext h1 rfl) hp⟩
  left
  simp only [ellipsoidSet, Set.mem_ofPred_eq] at hS
  simp at hS ⊢
  intro h0
  rw [h0] at hS
  norm_num at hS

/-- The inside wall of a cylinder. -/
example (rec : HitRecord (Fl exact0)) :
    ∃ rec', (Cylinder.ofReal (F := exact0) 1 0 1).hit ⟨cv ![-2, 0, 2], cv ![1, 0, -1/2]⟩ (fin 0) pinf rec = (true, rec') ∧
    rec'.meanCurvature = fin (1 / (2 * 1)) ∧ rec'.principalCurvatures = (fin 0, fin (1 / 1)) := by
  obtain ⟨rec', p, h, hp, hS⟩ := (C65_outside_partial (F := exact0) 1 0 1 ![-2, 0, 2] ![1, 0, -1/2] (fin 0) rfl
    (by show (0:ℝ) < 1 ^ 2 + 0 ^ 2; norm_num) (Or.inr (by show (0:ℝ) < |2 * (-2 * 1 + 0 * 0)|; norm_num)) (by
      intro t ht
      rw [fin_inj] at ht; subst ht
      show (1:ℝ) ^ 2 < (-2 + 0 * 1) ^ 2 + (0 + 0 * 0) ^ 2; norm_num)).exists_hit (tmax := pinf) rfl rec 3
    ⟨by rw [le_fin]; norm_num, rfl⟩ ⟨by show (-2 + 3 * 1 : ℝ) ^ 2 + (0 + 3 * 0) ^ 2 = 1 ^ 2; norm_num,
      by show (0:ℝ) ≤ 2 + 3 * (-1/2); norm_num, by show (2 + 3 * (-1/2) : ℝ) ≤ 1; norm_num⟩
  exact ⟨rec', h, C138_cylinder_partial (F := exact0) 1 0 1 one_pos one_pos (by show (0:ℝ) < _; norm_num) _ _ _ rec rec' h⟩

/-- The outer equator of a ring torus, seen from outside: the mean curvature is `-2/3`. -/
example (rec : HitRecord (Fl exact0)) :
    ∃ rec', (Torus.ofReal (F := exact0) 0 2 1).hit ⟨cv ![-10, 0, 0], cv ![1, 0, 0]⟩ (fin 0) pinf rec = (true, rec') ∧
    rec'.meanCurvature = fin (-(2 / 3)) ∧ rec'.principalCurvatures = (fin (-1), fin (-(1 / 3))) := by
  have hN := torus_axis_hit (-10) (Or.inl rfl) (fin 0)
  have h1 := (hN pinf rec rfl).1.mpr ⟨7, ⟨by rw [le_fin]; norm_num, rfl⟩, (torus_axis _ _).mpr (by norm_num)⟩
  obtain ⟨w, hw, hp, -, hS, hmin⟩ := (hN pinf rec rfl).2 h1
  have h7 := hmin 7 ⟨by rw [le_fin]; norm_num, rfl⟩ ((torus_axis _ _).mpr (by norm_num))
  obtain rfl : w = 7 := by
    rcases (torus_axis _ _).mp hS with h | h | h | h
    · linarith
    · linarith
    · linarith
    · linarith
  obtain ⟨hH, -, hP⟩ := C138_torus_false (F := exact0) 0 2 1 one_pos (by norm_num) ![-10, 0, 0] ![1, 0, 0] (fin 0) pinf rec _ _ hS (Prod.ext h1 rfl) hp
  have hρ : Real.sqrt (((![-10, 0, 0] + (7 : ℝ) • ![1, 0, 0] : Fin 3 → ℝ) 0 - (0 : Fin 3 → ℝ) 0) ^ 2 +
      ((![-10, 0, 0] + (7 : ℝ) • ![1, 0, 0] : Fin 3 → ℝ) 1 - (0 : Fin 3 → ℝ) 1) ^ 2) = 3 := by
    rw [show _ + _ = (3 : ℝ) ^ 2 by simp; norm_num, Real.sqrt_sq (by norm_num)]
  rw [hρ] at hH hP
  refine ⟨_, Prod.ext h1 rfl, hH.trans (by congr 1; unfold torusMean; norm_num), (hP (Or.inr (by show (0:ℝ) < _; norm_num))).trans ?_⟩
  norm_num

end DRT
