import Verif.Props.Torus
import Mathlib.Topology.Order.LocalExtr
import Mathlib.Topology.Algebra.GroupWithZero

/-! # The refinement of a point of the torus: C133 -/

namespace DRT
open Scalar Fl Matrix

variable {F : Fmt}

theorem clamp_fin_near {x y lo hi : ℝ} (h1 : lo ≤ y) (h2 : y ≤ hi) :
    ∃ z, Scalar.clamp (fin x : Fl F) (fin lo) (fin hi) = fin z ∧ |z - y| ≤ |x - y| := by
  unfold Scalar.clamp
  rw [lt_fin, lt_fin]
  by_cases h3 : x < lo
  · refine ⟨lo, by simp [h3], ?_⟩
    rw [abs_of_nonpos (by linarith), abs_of_nonpos (by linarith)]
    linarith
  · by_cases h4 : hi < x
    · refine ⟨hi, by simp [h3, h4], ?_⟩
      rw [abs_of_nonneg (by linarith), abs_of_nonneg (by linarith)]
      linarith
    · exact ⟨x, by simp [h3, h4], le_rfl⟩

/-- The derivative of the implicit function along a ray. -/
def torusSlope (R r : ℝ) (oc d : Fin 3 → ℝ) (t : ℝ) : ℝ :=
  4 * torusC R r oc d 4 * t ^ 3 + 3 * torusC R r oc d 3 * t ^ 2 + 2 * torusC R r oc d 2 * t + torusC R r oc d 1

theorem torusSlope_deriv (c : Fin 3 → ℝ) (R r : ℝ) (o d : Fin 3 → ℝ) (t : ℝ) :
    HasDerivAt (fun t => torusF c R r (o + t • d)) (torusSlope R r (o - c) d t) t := by
  rw [funext (torusF_ray c R r o d)]
  have := (((((hasDerivAt_pow 4 t).const_mul (torusC R r (o - c) d 4)).add ((hasDerivAt_pow 3 t).const_mul (torusC R r (o - c) d 3))).add
    ((hasDerivAt_pow 2 t).const_mul (torusC R r (o - c) d 2))).add ((hasDerivAt_id t).const_mul (torusC R r (o - c) d 1))).add_const
    (torusC R r (o - c) d 0)
  exact this.congr_deriv (by unfold torusSlope; norm_num; ring)

/-- The step of the refinement is Newton's step for the parameter of the ray. -/
theorem Torus.newtonStep_fin [F.Exact] (c : Fin 3 → ℝ) (R r : ℝ) (o d : Fin 3 → ℝ) (t : ℝ) (h : torusSlope R r (o - c) d t ≠ 0) :
    (ofReal c R r : Torus (Fl F)).newtonStep (cv (o + t • d)) (cv d) =
      cv (o + (t - torusF c R r (o + t • d) / torusSlope R r (o - c) d t) • d) := by
  unfold newtonStep ofReal
  simp only [fl, Nat.cast_ofNat, Scalar.ne, cv_vec3]
  have e1 : (![4 * ((o + t • d) 0 - c 0) * (((o + t • d) 0 - c 0) * ((o + t • d) 0 - c 0) + ((o + t • d) 1 - c 1) * ((o + t • d) 1 - c 1) +
        ((o + t • d) 2 - c 2) * ((o + t • d) 2 - c 2) - R * R - r * r),
      4 * ((o + t • d) 1 - c 1) * (((o + t • d) 0 - c 0) * ((o + t • d) 0 - c 0) + ((o + t • d) 1 - c 1) * ((o + t • d) 1 - c 1) +
        ((o + t • d) 2 - c 2) * ((o + t • d) 2 - c 2) - R * R - r * r),
      4 * ((o + t • d) 2 - c 2) * (((o + t • d) 0 - c 0) * ((o + t • d) 0 - c 0) + ((o + t • d) 1 - c 1) * ((o + t • d) 1 - c 1) +
        ((o + t • d) 2 - c 2) * ((o + t • d) 2 - c 2) + R * R - r * r)] : Fin 3 → ℝ) ⬝ᵥ d = torusSlope R r (o - c) d t := by
    unfold torusSlope torusC
    simp only [Fin.isValue, cons_val_zero, cons_val_one, cons_val, dotProduct, Fin.sum_univ_three, Pi.add_apply,
      Pi.sub_apply, Pi.smul_apply, smul_eq_mul]
    ring
  have e2 : (((o + t • d) 0 - c 0) * ((o + t • d) 0 - c 0) + ((o + t • d) 1 - c 1) * ((o + t • d) 1 - c 1) +
      ((o + t • d) 2 - c 2) * ((o + t • d) 2 - c 2) + R * R - r * r) *
      (((o + t • d) 0 - c 0) * ((o + t • d) 0 - c 0) + ((o + t • d) 1 - c 1) * ((o + t • d) 1 - c 1) +
      ((o + t • d) 2 - c 2) * ((o + t • d) 2 - c 2) + R * R - r * r) -
      4 * R * R * (((o + t • d) 0 - c 0) * ((o + t • d) 0 - c 0) + ((o + t • d) 1 - c 1) * ((o + t • d) 1 - c 1)) =
      torusF c R r (o + t • d) := by unfold torusF; ring
  rw [e1, e2, div_fin _ h]
  generalize torusF c R r (o + t • d) = f at *
  generalize torusSlope R r (o - c) d t = k at *
  rw [if_pos (by simp [h])]
  funext i
  match i with
  | 0 | 1 | 2 =>
    simp only [cons_val_zero, cons_val_one, cons_val, mul_fin, add_fin, cv_apply, Pi.add_apply, Pi.smul_apply, smul_eq_mul]
    congr 1
    ring

/-- C133: let a ray cross a torus at the parameter `s`, not tangentially. Then `refine_hit_point` maps a point of the ray near the
crossing to a point whose distance from the crossing is quadratic in the error of the parameter. -/
theorem C133_quadratic [F.Exact] (c : Fin 3 → ℝ) {R r : ℝ} (hR : 0 ≤ R) (hr : 0 ≤ r) (o d : Fin 3 → ℝ) (s : ℝ)
    (hs : o + s • d ∈ torusSet c R r) (hd : deriv (fun t => torusF c R r (o + t • d)) s ≠ 0) :
    ∃ K : ℝ, ∀ᶠ t in nhds s, ∃ q, (Torus.ofReal c R r : Torus (Fl F)).refine ((Ray.mk (cv o) (cv d) : Ray (Fl F)).at (fin t)) (cv d) = cv q ∧
      ∀ i, |q i - (o + s • d) i| ≤ K * (t - s) ^ 2 := by
  rw [(torusSlope_deriv c R r o d s).deriv] at hd
  have hcont : Continuous (torusSlope R r (o - c) d) := by unfold torusSlope; fun_prop
  set Q : ℝ → ℝ := fun t => torusC R r (o - c) d 2 + torusC R r (o - c) d 3 * (2 * t + s) +
    torusC R r (o - c) d 4 * (3 * t ^ 2 + 2 * t * s + s ^ 2) with hQ
  have hQc : Continuous Q := by rw [hQ]; fun_prop
  have hnz : ∀ᶠ t in nhds s, torusSlope R r (o - c) d t ≠ 0 := hcont.continuousAt.eventually_ne hd
  have hbd : ∀ᶠ t in nhds s, |Q t / torusSlope R r (o - c) d t| < |Q s / torusSlope R r (o - c) d s| + 1 :=
    ((hQc.continuousAt.div hcont.continuousAt hd).abs).eventually_lt continuousAt_const (lt_add_one _)
  refine ⟨(|Q s / torusSlope R r (o - c) d s| + 1) * (|d 0| + |d 1| + |d 2|), ?_⟩
  filter_upwards [hnz, hbd] with t h1 h2
  have hf : torusF c R r (o + s • d) = 0 := (torusF_eq_zero c R r _).mpr hs
  have herr : t - torusF c R r (o + t • d) / torusSlope R r (o - c) d t - s = (t - s) ^ 2 * (Q t / torusSlope R r (o - c) d t) := by
    rw [torusF_ray] at hf ⊢
    rw [hQ]
    have key : torusSlope R r (o - c) d t * (t - s) - (torusC R r (o - c) d 4 * t ^ 4 + torusC R r (o - c) d 3 * t ^ 3 +
        torusC R r (o - c) d 2 * t ^ 2 + torusC R r (o - c) d 1 * t + torusC R r (o - c) d 0) = (t - s) ^ 2 *
        (torusC R r (o - c) d 2 + torusC R r (o - c) d 3 * (2 * t + s) + torusC R r (o - c) d 4 * (3 * t ^ 2 + 2 * t * s + s ^ 2)) := by
      unfold torusSlope
      linear_combination -hf
    generalize torusSlope R r (o - c) d t = k at *
    dsimp only
    rw [← mul_div_assoc, ← key]
    field_simp
    ring
  rw [ray_at_cv, Torus.refine, Torus.newtonStep_fin c R r o d t h1]
  generalize hT : t - torusF c R r (o + t • d) / torusSlope R r (o - c) d t = T at *
  have hb := torus_bounds hR hr hs
  have b0 : c 0 - (R + r) ≤ (o + s • d) 0 ∧ (o + s • d) 0 ≤ c 0 + (R + r) := hb 0
  have b1 : c 1 - (R + r) ≤ (o + s • d) 1 ∧ (o + s • d) 1 ≤ c 1 + (R + r) := hb 1
  have b2 : c 2 - r ≤ (o + s • d) 2 ∧ (o + s • d) 2 ≤ c 2 + r := hb 2
  obtain ⟨z0, e0, g0⟩ := clamp_fin_near (F := F) (x := (o + T • d) 0) b0.1 b0.2
  obtain ⟨z1, e1, g1⟩ := clamp_fin_near (F := F) (x := (o + T • d) 1) b1.1 b1.2
  obtain ⟨z2, e2, g2⟩ := clamp_fin_near (F := F) (x := (o + T • d) 2) b2.1 b2.2
  refine ⟨![z0, z1, z2], ?_, ?_⟩
  · unfold Torus.clampToBox Torus.ofReal
    simp only [cv_apply, add_fin, sub_fin]
    rw [e0, e1, e2]
    funext i
    match i with
    | 0 | 1 | 2 => rfl
  · have hall : ∀ i, |(o + T • d) i - (o + s • d) i| ≤ (|Q s / torusSlope R r (o - c) d s| + 1) * (|d 0| + |d 1| + |d 2|) * (t - s) ^ 2 := by
      intro i
      have hi : |d i| ≤ |d 0| + |d 1| + |d 2| := by
        have h0 := abs_nonneg (d 0); have h1 := abs_nonneg (d 1); have h2 := abs_nonneg (d 2)
        match i with
        | 0 | 1 | 2 => linarith
      have : (o + T • d) i - (o + s • d) i = (t - s) ^ 2 * (Q t / torusSlope R r (o - c) d t) * d i := by
        rw [← herr]
        simp only [Pi.add_apply, Pi.smul_apply, smul_eq_mul]
        ring
      rw [this, abs_mul, abs_mul, abs_of_nonneg (sq_nonneg (t - s))]
      calc (t - s) ^ 2 * |Q t / torusSlope R r (o - c) d t| * |d i|
          ≤ (t - s) ^ 2 * (|Q s / torusSlope R r (o - c) d s| + 1) * (|d 0| + |d 1| + |d 2|) :=
            mul_le_mul (mul_le_mul_of_nonneg_left h2.le (sq_nonneg _)) hi (abs_nonneg _) (by positivity)
        _ = _ := by ring
    intro i
    match i with
    | 0 => exact g0.trans (hall 0)
    | 1 => exact g1.trans (hall 1)
    | 2 => exact g2.trans (hall 2)

/-- C133: the limit of the refinement is stable: when the root finder returns the exact parameter, the refinement returns the crossing
itself. The ray may be tangent. -/
theorem C133_fixed [F.Exact] (c : Fin 3 → ℝ) {R r : ℝ} (hR : 0 ≤ R) (hr : 0 ≤ r) (o d : Fin 3 → ℝ) (s : ℝ)
    (hs : o + s • d ∈ torusSet c R r) :
    (Torus.ofReal c R r : Torus (Fl F)).refine ((Ray.mk (cv o) (cv d) : Ray (Fl F)).at (fin s)) (cv d) = cv (o + s • d) := by
  rw [ray_at_cv, Torus.refine_on hR hr hs]

/-- An instance: a ray along the x axis enters the torus of `torus_curvature.cpp` at its outermost point. -/
example : ∃ K : ℝ, ∀ᶠ t in nhds (6 : ℝ), ∃ q, (Torus.ofReal 0 3 1 : Torus (Fl exact64)).refine
    ((Ray.mk (cv ![10, 0, 0]) (cv ![-1, 0, 0]) : Ray (Fl exact64)).at (fin t)) (cv ![-1, 0, 0]) = cv q ∧
      ∀ i, |q i - ((![10, 0, 0] + (6 : ℝ) • ![-1, 0, 0] : Fin 3 → ℝ) i)| ≤ K * (t - 6) ^ 2 := by
  refine C133_quadratic (R := 3) (r := 1) 0 (by norm_num) (by norm_num) _ _ _ ((torusF_eq_zero _ _ _ _).mp ?_) ?_
  · simp only [torusF, Pi.add_apply, Pi.smul_apply, Pi.zero_apply, cons_val_zero, cons_val_one, cons_val, smul_eq_mul]
    norm_num
  · rw [(torusSlope_deriv 0 3 1 _ _ 6).deriv]
    simp only [torusSlope, torusC, Pi.sub_apply, Pi.zero_apply, cons_val_zero, cons_val_one, cons_val, dotProduct, Fin.sum_univ_three]
    norm_num

end DRT
