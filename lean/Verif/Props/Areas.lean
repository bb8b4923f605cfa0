import Verif.Spec.Area
import Verif.Props.Sphere
import Verif.Props.Torus
import Mathlib.MeasureTheory.Measure.Lebesgue.VolumeOfBalls
import Mathlib.Analysis.SpecialFunctions.Integrals.Basic

/-! # C116: areas and volumes of spheres and tori -/

namespace DRT
open Scalar Vec Fl Matrix MeasureTheory

variable {F : Fmt}

/-! ## Areas -/

/-- C116: `sphere::area()` is the area of the parametrized sphere. -/
theorem C116_sphere_area [F.Exact] (c : Fin 3 → ℝ) (R : ℝ) :
    ∃ A, (Sphere.ofReal c R : Sphere (Fl F)).area = fin A ∧ SurfaceArea (Sphere.ofReal c R : Sphere (Fl F)).eval A := by
  refine ⟨4 * Real.pi * R * R, by simp only [Sphere.area, Sphere.ofReal, fl]; push_cast; rfl, spherePoint c R, spherePointU R,
    spherePointV R, Sphere.eval_fin c R, spherePoint_deriv c R, ?_⟩
  have hn : ∀ u v : ℝ, v ∈ Set.uIcc (0 : ℝ) 1 → Real.sqrt ((spherePointU R u v ⨯₃ spherePointV R u v) ⬝ᵥ
      (spherePointU R u v ⨯₃ spherePointV R u v)) = 2 * Real.pi ^ 2 * R ^ 2 * Real.sin (Real.pi * v) := by
    intro u v hv
    rw [Set.uIcc_of_le zero_le_one] at hv
    have hpi := Real.pi_pos
    have hs : 0 ≤ Real.sin (Real.pi * v) := Real.sin_nonneg_of_nonneg_of_le_pi (mul_nonneg hpi.le hv.1)
      (by nlinarith [hv.2])
    have t1 := Real.sin_sq_add_cos_sq (2 * Real.pi * u)
    have t2 := Real.sin_sq_add_cos_sq (Real.pi * v)
    have e : (spherePointU R u v ⨯₃ spherePointV R u v) ⬝ᵥ (spherePointU R u v ⨯₃ spherePointV R u v) =
        (2 * Real.pi ^ 2 * R ^ 2 * Real.sin (Real.pi * v)) ^ 2 := by
      rw [cross_dot_cross]
      simp only [spherePointU, spherePointV, dotProduct, Fin.sum_univ_three]
      simp only [Fin.isValue, cons_val_zero, cons_val_one, cons_val]
      generalize Real.sin (2 * Real.pi * u) = S at *
      generalize Real.cos (2 * Real.pi * u) = C at *
      generalize Real.sin (Real.pi * v) = s at *
      generalize Real.cos (Real.pi * v) = k at *
      have hC : C ^ 2 = 1 - S ^ 2 := by linarith
      have hk : k ^ 2 = 1 - s ^ 2 := by linarith
      ring_nf
      have hC4 : C ^ 4 = (1 - S ^ 2) ^ 2 := by rw [← hC]; ring
      simp only [hC4, hC, hk]
      ring
    rw [e, Real.sqrt_sq (by positivity)]
  have hi : ∀ u : ℝ, (∫ v in (0 : ℝ)..1, Real.sqrt ((spherePointU R u v ⨯₃ spherePointV R u v) ⬝ᵥ
      (spherePointU R u v ⨯₃ spherePointV R u v))) = 4 * Real.pi * R * R := by
    intro u
    rw [intervalIntegral.integral_congr (g := fun v => 2 * Real.pi ^ 2 * R ^ 2 * Real.sin (Real.pi * v)) (fun v hv => hn u v hv),
      intervalIntegral.integral_const_mul, intervalIntegral.integral_comp_mul_left (fun x => Real.sin x) Real.pi_ne_zero,
      integral_sin]
    have := Real.pi_ne_zero
    simp
    field_simp
    ring
  simp only [hi]
  simp

/-- C116: `torus::area()` is the area of the parametrized torus. -/
theorem C116_torus_area [F.Exact] (c : Fin 3 → ℝ) (R r : ℝ) (hr : 0 ≤ r) (hR : r ≤ R) :
    ∃ A, (Torus.ofReal c R r : Torus (Fl F)).area = fin A ∧ SurfaceArea (Torus.ofReal c R r : Torus (Fl F)).eval A := by
  have hpi := Real.pi_pos
  let su : ℝ → ℝ → Fin 3 → ℝ := fun u v => ![-(2 * Real.pi) * (R + r * Real.cos (2 * Real.pi * v)) * Real.sin (2 * Real.pi * u),
    2 * Real.pi * (R + r * Real.cos (2 * Real.pi * v)) * Real.cos (2 * Real.pi * u), 0]
  let sv : ℝ → ℝ → Fin 3 → ℝ := fun u v => ![-(2 * Real.pi) * r * Real.sin (2 * Real.pi * v) * Real.cos (2 * Real.pi * u),
    -(2 * Real.pi) * r * Real.sin (2 * Real.pi * v) * Real.sin (2 * Real.pi * u), 2 * Real.pi * r * Real.cos (2 * Real.pi * v)]
  refine ⟨4 * Real.pi * Real.pi * R * r, by simp only [Torus.area, Torus.ofReal, fl]; push_cast; rfl,
    fun u v => torusAt c R r (2 * Real.pi * u) (2 * Real.pi * v), su, sv, Torus.eval_fin c R r, ?_, ?_⟩
  · intro u v i
    have c1 := hasDerivAt_cos_mul (2 * Real.pi) u
    have s1 := hasDerivAt_sin_mul (2 * Real.pi) u
    have c2 := hasDerivAt_cos_mul (2 * Real.pi) v
    have s2 := hasDerivAt_sin_mul (2 * Real.pi) v
    fin_cases i
    · refine ⟨((c1.const_mul (R + r * Real.cos (2 * Real.pi * v))).const_add (c 0)).congr_deriv ?_,
        ((((c2.const_mul r).const_add R).mul_const (Real.cos (2 * Real.pi * u))).const_add (c 0)).congr_deriv ?_⟩
      · simp only [su, Fin.isValue, cons_val_zero, cons_val_one, cons_val, Fin.zero_eta, Fin.mk_one]; ring
      · simp only [sv, Fin.isValue, cons_val_zero, cons_val_one, cons_val, Fin.zero_eta, Fin.mk_one]; ring
    · refine ⟨((s1.const_mul (R + r * Real.cos (2 * Real.pi * v))).const_add (c 1)).congr_deriv ?_,
        ((((c2.const_mul r).const_add R).mul_const (Real.sin (2 * Real.pi * u))).const_add (c 1)).congr_deriv ?_⟩
      · simp only [su, Fin.isValue, cons_val_zero, cons_val_one, cons_val, Fin.zero_eta, Fin.mk_one]; ring
      · simp only [sv, Fin.isValue, cons_val_zero, cons_val_one, cons_val, Fin.zero_eta, Fin.mk_one]; ring
    · refine ⟨(hasDerivAt_const u _).congr_deriv ?_, ((s2.const_mul r).const_add (c 2)).congr_deriv ?_⟩
      · simp [su]
      · simp [sv]; ring
  · have hn : ∀ u v : ℝ, Real.sqrt ((su u v ⨯₃ sv u v) ⬝ᵥ (su u v ⨯₃ sv u v)) =
        4 * Real.pi ^ 2 * r * (R + r * Real.cos (2 * Real.pi * v)) := by
      intro u v
      have hc := abs_le.mp (Real.abs_cos_le_one (2 * Real.pi * v))
      have hq : 0 ≤ R + r * Real.cos (2 * Real.pi * v) := by nlinarith [hc.1]
      have t1 := Real.sin_sq_add_cos_sq (2 * Real.pi * u)
      have t2 := Real.sin_sq_add_cos_sq (2 * Real.pi * v)
      have e : (su u v ⨯₃ sv u v) ⬝ᵥ (su u v ⨯₃ sv u v) = (4 * Real.pi ^ 2 * r * (R + r * Real.cos (2 * Real.pi * v))) ^ 2 := by
        rw [cross_dot_cross]
        simp only [su, sv, dotProduct, Fin.sum_univ_three]
        simp only [Fin.isValue, cons_val_zero, cons_val_one, cons_val]
        generalize hQ : R + r * Real.cos (2 * Real.pi * v) = Q
        clear hc hq hQ
        generalize Real.sin (2 * Real.pi * u) = S at *
        generalize Real.cos (2 * Real.pi * u) = C at *
        generalize Real.sin (2 * Real.pi * v) = s at *
        generalize Real.cos (2 * Real.pi * v) = k at *
        have hC : C ^ 2 = 1 - S ^ 2 := by linarith
        have hk : k ^ 2 = 1 - s ^ 2 := by linarith
        ring_nf
        have hC4 : C ^ 4 = (1 - S ^ 2) ^ 2 := by rw [← hC]; ring
        simp only [hC4, hC, hk]
        ring
      rw [e, Real.sqrt_sq (by positivity)]
    simp only [hn]
    have hi : (∫ v in (0 : ℝ)..1, 4 * Real.pi ^ 2 * r * (R + r * Real.cos (2 * Real.pi * v))) = 4 * Real.pi * Real.pi * R * r := by
      rw [intervalIntegral.integral_const_mul, intervalIntegral.integral_add (by simp)
        (Continuous.intervalIntegrable (by fun_prop) _ _), intervalIntegral.integral_const_mul,
        intervalIntegral.integral_comp_mul_left (fun x => Real.cos x) (by positivity), integral_cos]
      simp
      ring
    rw [hi]
    simp

/-! ## Volumes -/

/-- The disc in the coordinate plane. -/
theorem volume_disc (ρ : ℝ) (hρ : 0 ≤ ρ) : volume {y : Fin 2 → ℝ | y 0 ^ 2 + y 1 ^ 2 ≤ ρ ^ 2} = ENNReal.ofReal (Real.pi * ρ ^ 2) := by
  have h := (PiLp.volume_preserving_ofLp (Fin 2)).measure_preimage_equiv
    (f := (MeasurableEquiv.toLp 2 (Fin 2 → ℝ)).symm) {y : Fin 2 → ℝ | y 0 ^ 2 + y 1 ^ 2 ≤ ρ ^ 2}
  rw [← h]
  have e : (MeasurableEquiv.toLp 2 (Fin 2 → ℝ)).symm ⁻¹' {y : Fin 2 → ℝ | y 0 ^ 2 + y 1 ^ 2 ≤ ρ ^ 2} =
      Metric.closedBall (0 : EuclideanSpace ℝ (Fin 2)) ρ := by
    rw [EuclideanSpace.closedBall_zero_eq ρ hρ]
    ext y
    simp [Fin.sum_univ_two]
  rw [e, EuclideanSpace.volume_closedBall_fin_two, ← ENNReal.ofReal_pow hρ, ← ENNReal.ofReal_mul (by positivity), mul_comm]

/-- C116: `sphere::volume()` is the volume of the ball. -/
theorem C116_sphere_volume [F.Exact] (c : Fin 3 → ℝ) (R : ℝ) (hR : 0 ≤ R) :
    ∃ V, (Sphere.ofReal c R : Sphere (Fl F)).volume = fin V ∧
      volume {p : Fin 3 → ℝ | (p 0 - c 0) ^ 2 + (p 1 - c 1) ^ 2 + (p 2 - c 2) ^ 2 ≤ R ^ 2} = ENNReal.ofReal V := by
  refine ⟨4 * Real.pi * R * R * R / 3, ?_, ?_⟩
  · simp only [Sphere.volume, Sphere.ofReal, fl]
    rw [div_fin _ (by norm_num)]
    push_cast; rfl
  · have h := (PiLp.volume_preserving_ofLp (Fin 3)).measure_preimage_equiv
      (f := (MeasurableEquiv.toLp 2 (Fin 3 → ℝ)).symm) {p : Fin 3 → ℝ | (p 0 - c 0) ^ 2 + (p 1 - c 1) ^ 2 + (p 2 - c 2) ^ 2 ≤ R ^ 2}
    rw [← h]
    have e : (MeasurableEquiv.toLp 2 (Fin 3 → ℝ)).symm ⁻¹' {p : Fin 3 → ℝ | (p 0 - c 0) ^ 2 + (p 1 - c 1) ^ 2 + (p 2 - c 2) ^ 2 ≤ R ^ 2} =
        Metric.closedBall (WithLp.toLp 2 c : EuclideanSpace ℝ (Fin 3)) R := by
      ext y
      rw [Metric.mem_closedBall, EuclideanSpace.dist_eq, Real.sqrt_le_left hR]
      simp [Fin.sum_univ_three, Real.dist_eq, sq_abs]
    rw [e, EuclideanSpace.volume_closedBall_fin_three, ← ENNReal.ofReal_pow hR, ← ENNReal.ofReal_mul (by positivity)]
    congr 1
    ring

/-- The disc sliced: the integral of the widths of its slices is its area. -/
theorem lintegral_widths (r : ℝ) (hr : 0 ≤ r) :
    (∫⁻ z : ℝ, ENNReal.ofReal (2 * Real.sqrt (r ^ 2 - z ^ 2))) = ENNReal.ofReal (Real.pi * r ^ 2) := by
  have hm : MeasurableSet {q : ℝ × ℝ | q.1 ^ 2 + q.2 ^ 2 ≤ r ^ 2} :=
    (isClosed_le (by fun_prop) (by fun_prop)).measurableSet
  rw [← volume_disc r hr]
  have h := (volume_preserving_finTwoArrow ℝ).measure_preimage_equiv {q : ℝ × ℝ | q.1 ^ 2 + q.2 ^ 2 ≤ r ^ 2}
  have e : (MeasurableEquiv.finTwoArrow : (Fin 2 → ℝ) ≃ᵐ ℝ × ℝ) ⁻¹' {q : ℝ × ℝ | q.1 ^ 2 + q.2 ^ 2 ≤ r ^ 2} =
      {y : Fin 2 → ℝ | y 0 ^ 2 + y 1 ^ 2 ≤ r ^ 2} := by
    ext y; simp [MeasurableEquiv.finTwoArrow]
  rw [← e, h, Measure.volume_eq_prod, Measure.prod_apply hm]
  refine lintegral_congr fun z => ?_
  by_cases hz : 0 ≤ r ^ 2 - z ^ 2
  · have e2 : Prod.mk z ⁻¹' {q : ℝ × ℝ | q.1 ^ 2 + q.2 ^ 2 ≤ r ^ 2} =
        Set.Icc (-Real.sqrt (r ^ 2 - z ^ 2)) (Real.sqrt (r ^ 2 - z ^ 2)) := by
      ext w
      simp only [Set.mem_preimage, Set.mem_setOf_eq, Set.mem_Icc]
      rw [← abs_le, ← Real.sqrt_sq_eq_abs, Real.sqrt_le_sqrt_iff hz]
      constructor <;> intro h <;> linarith
    rw [e2, Real.volume_Icc]
    congr 1; ring
  · have e2 : Prod.mk z ⁻¹' {q : ℝ × ℝ | q.1 ^ 2 + q.2 ^ 2 ≤ r ^ 2} = ∅ := by
      ext w
      simp only [Set.mem_preimage, Set.mem_setOf_eq, Set.mem_empty_iff_false, iff_false, not_le]
      nlinarith [sq_nonneg w]
    rw [e2, Real.sqrt_eq_zero_of_nonpos (by linarith)]
    simp

/-- A slice of the solid torus: a ring with radii `R - w` and `R + w`. -/
theorem volume_ring (R w : ℝ) (hw : 0 ≤ w) (hR : w ≤ R) :
    volume {y : Fin 2 → ℝ | (Real.sqrt (y 0 ^ 2 + y 1 ^ 2) - R) ^ 2 ≤ w ^ 2} = ENNReal.ofReal (4 * Real.pi * R * w) := by
  have hpi := Real.pi_pos
  have hin : ∀ ρ : ℝ, 0 ≤ ρ → volume {y : Fin 2 → ℝ | y 0 ^ 2 + y 1 ^ 2 < ρ ^ 2} = ENNReal.ofReal (Real.pi * ρ ^ 2) := by
    intro ρ hρ
    rw [← (PiLp.volume_preserving_ofLp (Fin 2)).measure_preimage_equiv
      (f := (MeasurableEquiv.toLp 2 (Fin 2 → ℝ)).symm) {y : Fin 2 → ℝ | y 0 ^ 2 + y 1 ^ 2 < ρ ^ 2}]
    have e : (MeasurableEquiv.toLp 2 (Fin 2 → ℝ)).symm ⁻¹' {y : Fin 2 → ℝ | y 0 ^ 2 + y 1 ^ 2 < ρ ^ 2} =
        Metric.ball (0 : EuclideanSpace ℝ (Fin 2)) ρ := by
      rw [EuclideanSpace.ball_zero_eq ρ hρ]
      ext y
      simp [Fin.sum_univ_two]
    rw [e, EuclideanSpace.volume_ball_fin_two, ← ENNReal.ofReal_pow hρ, ← ENNReal.ofReal_mul (by positivity), mul_comm]
  have e : {y : Fin 2 → ℝ | (Real.sqrt (y 0 ^ 2 + y 1 ^ 2) - R) ^ 2 ≤ w ^ 2} =
      {y : Fin 2 → ℝ | y 0 ^ 2 + y 1 ^ 2 ≤ (R + w) ^ 2} \ {y : Fin 2 → ℝ | y 0 ^ 2 + y 1 ^ 2 < (R - w) ^ 2} := by
    ext y
    simp only [Set.mem_setOf_eq, Set.mem_diff, not_lt]
    rw [sq_le_sq, abs_of_nonneg hw, abs_le]
    have h0 : 0 ≤ y 0 ^ 2 + y 1 ^ 2 := by positivity
    rw [← Real.sqrt_le_left (by linarith : 0 ≤ R + w), ← Real.le_sqrt (by linarith : 0 ≤ R - w) h0]
    constructor <;> rintro ⟨h1, h2⟩ <;> constructor <;> linarith
  have hm : MeasurableSet {y : Fin 2 → ℝ | y 0 ^ 2 + y 1 ^ 2 < (R - w) ^ 2} :=
    (isOpen_lt (by fun_prop) (by fun_prop)).measurableSet
  rw [e, measure_diff _ hm.nullMeasurableSet (by rw [hin _ (by linarith)]; exact ENNReal.ofReal_ne_top),
    volume_disc _ (by linarith), hin _ (by linarith), ← ENNReal.ofReal_sub _ (by positivity)]
  · congr 1; ring
  · intro y (hy : y 0 ^ 2 + y 1 ^ 2 < (R - w) ^ 2)
    show y 0 ^ 2 + y 1 ^ 2 ≤ (R + w) ^ 2
    nlinarith

/-- C116: `torus::volume()` is the volume of the solid torus. -/
theorem C116_torus_volume [F.Exact] (c : Fin 3 → ℝ) (R r : ℝ) (hr : 0 ≤ r) (hR : r ≤ R) :
    ∃ V, (Torus.ofReal c R r : Torus (Fl F)).volume = fin V ∧
      volume {p : Fin 3 → ℝ | (Real.sqrt ((p 0 - c 0) ^ 2 + (p 1 - c 1) ^ 2) - R) ^ 2 + (p 2 - c 2) ^ 2 ≤ r ^ 2} =
        ENNReal.ofReal V := by
  have hpi := Real.pi_pos
  refine ⟨2 * Real.pi * Real.pi * R * r * r, by simp only [Torus.volume, Torus.ofReal, fl]; push_cast; rfl, ?_⟩
  let K : Set (Fin 3 → ℝ) := {p | (Real.sqrt (p 0 ^ 2 + p 1 ^ 2) - R) ^ 2 + p 2 ^ 2 ≤ r ^ 2}
  let K' : Set (ℝ × (Fin 2 → ℝ)) := {q | (Real.sqrt (q.2 0 ^ 2 + q.2 1 ^ 2) - R) ^ 2 + q.1 ^ 2 ≤ r ^ 2}
  have ht : volume {p : Fin 3 → ℝ | (Real.sqrt ((p 0 - c 0) ^ 2 + (p 1 - c 1) ^ 2) - R) ^ 2 + (p 2 - c 2) ^ 2 ≤ r ^ 2} =
      volume K := by
    have := measure_preimage_add_right (volume : Measure (Fin 3 → ℝ)) (-c) K
    rw [← this]
    simp only [K, Set.preimage_setOf_eq, ← sub_eq_add_neg]
    rfl
  have hm : MeasurableSet K' := (isClosed_le (by fun_prop) (by fun_prop)).measurableSet
  have h := (volume_preserving_piFinSuccAbove (fun _ : Fin 3 => ℝ) 2).measure_preimage_equiv K'
  have e : (MeasurableEquiv.piFinSuccAbove (fun _ : Fin 3 => ℝ) 2) ⁻¹' K' = K := by
    ext p
    simp only [K, K', Set.mem_preimage, Set.mem_setOf_eq]
    rfl
  rw [ht, ← e, h, Measure.volume_eq_prod, Measure.prod_apply hm]
  have hs : ∀ z : ℝ, volume (Prod.mk z ⁻¹' K') =
      ENNReal.ofReal (2 * Real.pi * R) * ENNReal.ofReal (2 * Real.sqrt (r ^ 2 - z ^ 2)) := by
    intro z
    by_cases hz : 0 ≤ r ^ 2 - z ^ 2
    · have e2 : Prod.mk z ⁻¹' K' = {y : Fin 2 → ℝ | (Real.sqrt (y 0 ^ 2 + y 1 ^ 2) - R) ^ 2 ≤ Real.sqrt (r ^ 2 - z ^ 2) ^ 2} := by
        ext y
        simp only [K', Set.mem_preimage, Set.mem_setOf_eq]
        rw [Real.sq_sqrt hz]
        constructor <;> intro h <;> linarith
      rw [e2, volume_ring R _ (Real.sqrt_nonneg _) ?_, ← ENNReal.ofReal_mul (by have := hr.trans hR; positivity)]
      · congr 1; ring
      · refine le_trans ?_ hR
        rw [Real.sqrt_le_left hr]
        nlinarith [sq_nonneg z]
    · have e2 : Prod.mk z ⁻¹' K' = ∅ := by
        ext y
        simp only [K', Set.mem_preimage, Set.mem_setOf_eq, Set.mem_empty_iff_false, iff_false, not_le]
        nlinarith [sq_nonneg (Real.sqrt (y 0 ^ 2 + y 1 ^ 2) - R)]
      rw [e2, Real.sqrt_eq_zero_of_nonpos (by linarith)]
      simp
  simp only [hs]
  rw [lintegral_const_mul _ (by fun_prop), lintegral_widths r hr, ← ENNReal.ofReal_mul (by have := hr.trans hR; positivity)]
  congr 1; ring

/-! ## Cases -/

/-- A sphere of radius 2 about (1, 2, 3) has area 16π and volume 32π/3. -/
example : SurfaceArea (Sphere.ofReal ![1, 2, 3] 2 : Sphere (Fl exact64)).eval (16 * Real.pi) ∧
    volume {p : Fin 3 → ℝ | (p 0 - 1) ^ 2 + (p 1 - 2) ^ 2 + (p 2 - 3) ^ 2 ≤ 2 ^ 2} = ENNReal.ofReal (32 * Real.pi / 3) := by
  obtain ⟨A, hA, h⟩ := C116_sphere_area (F := exact64) ![1, 2, 3] 2
  obtain ⟨V, hV, h'⟩ := C116_sphere_volume (F := exact64) ![1, 2, 3] 2 (by norm_num)
  simp only [Sphere.area, Sphere.volume, Sphere.ofReal, fl] at hA hV
  rw [div_fin _ (by norm_num)] at hV
  push_cast at hA hV
  replace hV := fin_inj.mp hV
  refine ⟨?_, ?_⟩
  · convert h using 1; rw [← hA]; ring
  · refine (Eq.trans ?_ h').trans ?_
    · simp
    · rw [← hV]; congr 1; ring

/-- The torus with radii 2 and 1 about the origin has area 8π² and volume 4π². -/
example : SurfaceArea (Torus.ofReal 0 2 1 : Torus (Fl exact64)).eval (8 * Real.pi ^ 2) ∧
    volume {p : Fin 3 → ℝ | (Real.sqrt ((p 0 - 0) ^ 2 + (p 1 - 0) ^ 2) - 2) ^ 2 + (p 2 - 0) ^ 2 ≤ 1 ^ 2} =
      ENNReal.ofReal (4 * Real.pi ^ 2) := by
  obtain ⟨A, hA, h⟩ := C116_torus_area (F := exact64) 0 2 1 (by norm_num) (by norm_num)
  obtain ⟨V, hV, h'⟩ := C116_torus_volume (F := exact64) 0 2 1 (by norm_num) (by norm_num)
  simp only [Torus.area, Torus.volume, Torus.ofReal, fl] at hA hV
  push_cast at hA hV
  refine ⟨?_, ?_⟩
  · convert h using 1; rw [← hA]; ring
  · refine (Eq.trans ?_ h').trans ?_
    · simp
    · rw [← hV]; congr 1; ring

end DRT
