import Verif.Model.RayColor
import Verif.Props.Vec
import Mathlib.Analysis.SpecialFunctions.Trigonometric.Deriv

/-! # C82: the camera -/

namespace DRT
open Scalar Fl Matrix

variable {F : Fmt}

/-- Orthonormal and right-handed. -/
def Frame (u v w : Fin 3 → ℝ) : Prop :=
  u ⬝ᵥ u = 1 ∧ v ⬝ᵥ v = 1 ∧ w ⬝ᵥ w = 1 ∧ u ⬝ᵥ v = 0 ∧ v ⬝ᵥ w = 0 ∧ w ⬝ᵥ u = 0 ∧ u ⨯₃ v = w

/-- C82: a camera at `from` looking at `at` with vertical opening `vfov` degrees: there is an orthonormal frame, right, up and backward,
with `backward` pointing from the look-at point to the camera and `up` on the side of the given up vector, and every ray starts at the
camera and passes through the point of the image plane at distance 1 whose coordinates run linearly from minus to plus the half
height `tan (vfov/2)`, and `aspect` times that in the width. -/
theorem C82_rays [F.Exact] (eye target up : Fin 3 → ℝ) (vfov aspect : ℝ) (h0 : 0 < vfov) (h1 : vfov < 180) (hw : eye ≠ target)
    (hup : up ⨯₃ (eye - target) ≠ 0) :
    ∃ right upward backward : Fin 3 → ℝ, Frame right upward backward ∧ (∃ c : ℝ, 0 < c ∧ eye - target = c • backward) ∧
      0 < upward ⬝ᵥ up ∧ right ⬝ᵥ up = 0 ∧
      ∀ s t : ℝ, (Camera.make (cv eye) (cv target) (cv up) (fin vfov) (fin aspect : Fl F)).getRay (fin s) (fin t) =
        ⟨cv eye, cv (-backward + ((2 * s - 1) * (aspect * Real.tan (vfov * Real.pi / 180 / 2))) • right +
          ((2 * t - 1) * Real.tan (vfov * Real.pi / 180 / 2)) • upward)⟩ := by
  have hd : eye - target ≠ 0 := sub_ne_zero.mpr hw
  obtain ⟨w, hwn, hw1, c, hc, hwc⟩ := C02_normalize_unit (F := F) (eye - target) hd
  have hwc' : eye - target = c • w := funext fun i => hwc i
  have hx : up ⨯₃ w ≠ 0 := by
    intro h
    apply hup
    rw [hwc', LinearMap.map_smul, h, smul_zero]
  obtain ⟨u, hun, hu1, k, hk, huk⟩ := C02_normalize_unit (F := F) (up ⨯₃ w) hx
  have huk' : up ⨯₃ w = k • u := funext fun i => huk i
  have hwu : w ⬝ᵥ u = 0 := by
    have : w ⬝ᵥ (k • u) = 0 := by rw [← huk', dot_cross_self]
    rw [dotProduct_smul, smul_eq_mul] at this
    rcases mul_eq_zero.mp this with h | h
    · exact absurd h hk.ne'
    · exact h
  have hup0 : u ⬝ᵥ up = 0 := by
    have : up ⬝ᵥ (k • u) = 0 := by rw [← huk', dot_self_cross]
    rw [dotProduct_smul, smul_eq_mul] at this
    rw [dotProduct_comm]
    rcases mul_eq_zero.mp this with h | h
    · exact absurd h hk.ne'
    · exact h
  refine ⟨u, w ⨯₃ u, w, ⟨hu1, ?_, hw1, ?_, ?_, hwu, ?_⟩, ⟨c, hc, hwc'⟩, ?_, hup0, ?_⟩
  · rw [cross_dot_cross, hw1, hu1, hwu, dotProduct_comm u w, hwu]; ring
  · exact dot_cross_self _ _
  · rw [dotProduct_comm]; exact dot_self_cross _ _
  · have h3 : u ⨯₃ (w ⨯₃ u) = (u ⬝ᵥ u) • w - (u ⬝ᵥ w) • u := by
      simp only [cross_apply, dotProduct, Fin.sum_univ_three]
      funext i
      fin_cases i <;> simp <;> ring
    rw [h3, hu1, dotProduct_comm u w, hwu]; simp
  · have : (w ⨯₃ u) ⬝ᵥ up = k := by
      have h4 : (w ⨯₃ u) ⬝ᵥ up = (up ⨯₃ w) ⬝ᵥ u := by
        simp only [cross_apply, dotProduct, Fin.sum_univ_three]
        simp
        ring
      rw [h4, huk', smul_dotProduct, hu1]; simp
    rw [this]; exact hk
  · intro s t
    have hcos : Real.cos (vfov * Real.pi / 180 / 2) ≠ 0 := by
      have hp := Real.pi_pos
      apply ne_of_gt
      apply Real.cos_pos_of_mem_Ioo
      constructor
      · have : 0 < vfov * Real.pi := by positivity
        linarith
      · have : vfov * Real.pi < 180 * Real.pi := by nlinarith
        linarith
    unfold Camera.make Camera.getRay
    simp only [cv_sub, hwn, cv_cross, hun, pi_def, ofNat_def, mul_fin, Nat.cast_ofNat, div_fin _ (by norm_num : (180 : ℝ) ≠ 0),
      div_fin _ (by norm_num : (2 : ℝ) ≠ 0), tan_fin hcos, cv_smul, cv_sdiv (by norm_num : (2 : ℝ) ≠ 0), cv_add]
    congr 2
    generalize Real.tan (vfov * Real.pi / 180 / 2) = T
    generalize w ⨯₃ u = v
    funext i
    simp only [Pi.sub_apply, Pi.add_apply, Pi.neg_apply, Pi.smul_apply, smul_eq_mul]
    ring

/-- A camera that the hypotheses of this section admit: 45 degrees, looking from (1, 2, 3) to the origin, upright. -/
theorem camera_instance : (0 : ℝ) < 45 ∧ (45 : ℝ) < 180 ∧ (![1, 2, 3] : Fin 3 → ℝ) ≠ 0 ∧
    (![0, 0, 1] : Fin 3 → ℝ) ⨯₃ (![1, 2, 3] - 0) ≠ 0 := by
  refine ⟨by norm_num, by norm_num, fun h => ?_, fun h => ?_⟩
  · have := congrFun h 0; norm_num at this
  · rw [cross_apply] at h
    have h0 : (0 : ℝ) * (3 - 0) - 1 * (2 - 0) = 0 := congrFun h 0
    norm_num at h0

example : ∃ d : Fin 3 → ℝ, ((Camera.make (cv ![1, 2, 3]) (cv 0) (cv ![0, 0, 1]) (fin 45) (fin 2 : Fl exact64)).getRay (fin (1 / 3)) (fin (1 / 4))).dir =
    cv d := by
  obtain ⟨h0, h1, h2, h3⟩ := camera_instance
  obtain ⟨a, b, c, -, -, -, -, h⟩ := C82_rays (F := exact64) ![1, 2, 3] 0 ![0, 0, 1] 45 2 h0 h1 h2 h3
  rw [h]
  exact ⟨_, rfl⟩

/-- C82: the ray through the middle of the image passes through the look-at point. -/
theorem C82_center [F.Exact] (eye target up : Fin 3 → ℝ) (vfov aspect : ℝ) (h0 : 0 < vfov) (h1 : vfov < 180) (hw : eye ≠ target)
    (hup : up ⨯₃ (eye - target) ≠ 0) :
    ∃ z : ℝ, 0 < z ∧
      ((Camera.make (cv eye) (cv target) (cv up) (fin vfov) (fin aspect : Fl F)).getRay (fin (1 / 2)) (fin (1 / 2))).at (fin z) = cv target := by
  obtain ⟨u, v, w, -, ⟨c, hc, hcw⟩, -, -, h⟩ := C82_rays (F := F) eye target up vfov aspect h0 h1 hw hup
  refine ⟨c, hc, ?_⟩
  rw [h, ray_at_cv, cv_inj]
  have : target = eye - c • w := by rw [← hcw]; abel
  rw [this]
  funext i
  simp only [Pi.sub_apply, Pi.add_apply, Pi.neg_apply, Pi.smul_apply, smul_eq_mul]
  ring

example : ∃ z : ℝ, 0 < z ∧ ((Camera.make (cv ![1, 2, 3]) (cv 0) (cv ![0, 0, 1]) (fin 45) (fin 2 : Fl exact64)).getRay (fin (1 / 2)) (fin (1 / 2))).at
    (fin z) = cv 0 := by
  obtain ⟨h0, h1, h2, h3⟩ := camera_instance
  exact C82_center (F := exact64) ![1, 2, 3] 0 ![0, 0, 1] 45 2 h0 h1 h2 h3

/-- C82: the rays through the middle of the lower and upper edge enclose the angle `vfov`. -/
theorem C82_field_of_view [F.Exact] (eye target up : Fin 3 → ℝ) (vfov aspect : ℝ) (h0 : 0 < vfov) (h1 : vfov < 180) (hw : eye ≠ target)
    (hup : up ⨯₃ (eye - target) ≠ 0) :
    ∃ a b : Fin 3 → ℝ, ((Camera.make (cv eye) (cv target) (cv up) (fin vfov) (fin aspect : Fl F)).getRay (fin (1 / 2)) (fin 0)).dir = cv a ∧
      ((Camera.make (cv eye) (cv target) (cv up) (fin vfov) (fin aspect : Fl F)).getRay (fin (1 / 2)) (fin 1)).dir = cv b ∧
      a ⬝ᵥ b = Real.cos (vfov * Real.pi / 180) * (Real.sqrt (a ⬝ᵥ a) * Real.sqrt (b ⬝ᵥ b)) := by
  obtain ⟨u, v, w, ⟨hu, hv, hw1, huv, hvw, hwu, -⟩, -, -, -, h⟩ := C82_rays (F := F) eye target up vfov aspect h0 h1 hw hup
  refine ⟨_, _, by rw [h], by rw [h], ?_⟩
  have hcos : 0 < Real.cos (vfov * Real.pi / 180 / 2) := by
    have hp := Real.pi_pos
    apply Real.cos_pos_of_mem_Ioo
    constructor
    · have : 0 < vfov * Real.pi := by positivity
      linarith
    · have : vfov * Real.pi < 180 * Real.pi := by nlinarith
      linarith
  have h2 : Real.cos (vfov * Real.pi / 180) = 2 * Real.cos (vfov * Real.pi / 180 / 2) ^ 2 - 1 := by
    rw [← Real.cos_two_mul]; congr 1; ring
  have hT : (1 + Real.tan (vfov * Real.pi / 180 / 2) ^ 2) * Real.cos (vfov * Real.pi / 180 / 2) ^ 2 = 1 := by
    rw [Real.tan_eq_sin_div_cos]
    have hsc := Real.cos_sq_add_sin_sq (vfov * Real.pi / 180 / 2)
    generalize Real.sin (vfov * Real.pi / 180 / 2) = Y at *
    generalize Real.cos (vfov * Real.pi / 180 / 2) = X at *
    field_simp
    exact hsc
  rw [h2]
  generalize Real.cos (vfov * Real.pi / 180 / 2) = C at *
  generalize Real.tan (vfov * Real.pi / 180 / 2) = T at *
  have hwv : w ⬝ᵥ v = 0 := by rw [dotProduct_comm]; exact hvw
  have huw : u ⬝ᵥ w = 0 := by rw [dotProduct_comm]; exact hwu
  have hvu : v ⬝ᵥ u = 0 := by rw [dotProduct_comm]; exact huv
  have e : ∀ p q : ℝ, (-w + ((2 * (1 / 2) - 1) * (aspect * T)) • u + p • v) ⬝ᵥ (-w + ((2 * (1 / 2) - 1) * (aspect * T)) • u + q • v) = 1 + p * q := by
    intro p q
    simp only [dotProduct_add, add_dotProduct, smul_dotProduct, dotProduct_smul, neg_dotProduct, dotProduct_neg, hu, hv, hw1, huv, hvw, hwu,
      hwv, huw, hvu, smul_eq_mul]
    ring
  rw [e, e, e]
  have e1 : (1 + (2 * 0 - 1) * T * ((2 * 0 - 1) * T)) = 1 + T ^ 2 := by ring
  have e2 : (1 + (2 * 1 - 1) * T * ((2 * 1 - 1) * T)) = 1 + T ^ 2 := by ring
  rw [e1, e2, Real.mul_self_sqrt (by positivity)]
  linear_combination (-2) * hT

example : ∃ a b : Fin 3 → ℝ,
    ((Camera.make (cv ![1, 2, 3]) (cv 0) (cv ![0, 0, 1]) (fin 45) (fin 2 : Fl exact64)).getRay (fin (1 / 2)) (fin 0)).dir = cv a ∧
    ((Camera.make (cv ![1, 2, 3]) (cv 0) (cv ![0, 0, 1]) (fin 45) (fin 2 : Fl exact64)).getRay (fin (1 / 2)) (fin 1)).dir = cv b ∧
    a ⬝ᵥ b = Real.cos (45 * Real.pi / 180) * (Real.sqrt (a ⬝ᵥ a) * Real.sqrt (b ⬝ᵥ b)) := by
  obtain ⟨h0, h1, h2, h3⟩ := camera_instance
  exact C82_field_of_view (F := exact64) ![1, 2, 3] 0 ![0, 0, 1] 45 2 h0 h1 h2 h3

/-- C82: the image plane spans `aspect` times its height in the width: the differences of the rays at the corners are perpendicular to
each other and to the view direction, with lengths in the ratio `aspect`. -/
theorem C82_aspect [F.Exact] (eye target up : Fin 3 → ℝ) (vfov aspect : ℝ) (h0 : 0 < vfov) (h1 : vfov < 180) (hw : eye ≠ target)
    (hup : up ⨯₃ (eye - target) ≠ 0) :
    ∃ o a b : Fin 3 → ℝ, ((Camera.make (cv eye) (cv target) (cv up) (fin vfov) (fin aspect : Fl F)).getRay (fin 0) (fin 0)).dir = cv o ∧
      ((Camera.make (cv eye) (cv target) (cv up) (fin vfov) (fin aspect : Fl F)).getRay (fin 1) (fin 0)).dir = cv a ∧
      ((Camera.make (cv eye) (cv target) (cv up) (fin vfov) (fin aspect : Fl F)).getRay (fin 0) (fin 1)).dir = cv b ∧
      (a - o) ⬝ᵥ (b - o) = 0 ∧ (a - o) ⬝ᵥ (eye - target) = 0 ∧ (b - o) ⬝ᵥ (eye - target) = 0 ∧ 0 < (b - o) ⬝ᵥ (b - o) ∧
      (a - o) ⬝ᵥ (a - o) = aspect ^ 2 * ((b - o) ⬝ᵥ (b - o)) := by
  obtain ⟨u, v, w, ⟨hu, hv, hw1, huv, hvw, hwu, -⟩, ⟨c, hc, hcw⟩, -, -, h⟩ := C82_rays (F := F) eye target up vfov aspect h0 h1 hw hup
  have hT : 0 < Real.tan (vfov * Real.pi / 180 / 2) := by
    have hp := Real.pi_pos
    apply Real.tan_pos_of_pos_of_lt_pi_div_two
    · positivity
    · have : vfov * Real.pi < 180 * Real.pi := by nlinarith
      linarith
  refine ⟨_, _, _, by rw [h], by rw [h], by rw [h], ?_⟩
  generalize Real.tan (vfov * Real.pi / 180 / 2) = T at *
  have ea : (-w + ((2 * 1 - 1) * (aspect * T)) • u + ((2 * 0 - 1) * T) • v) - (-w + ((2 * 0 - 1) * (aspect * T)) • u + ((2 * 0 - 1) * T) • v) =
      (2 * (aspect * T)) • u := by
    funext i
    simp only [Pi.sub_apply, Pi.add_apply, Pi.neg_apply, Pi.smul_apply, smul_eq_mul]
    ring
  have eb : (-w + ((2 * 0 - 1) * (aspect * T)) • u + ((2 * 1 - 1) * T) • v) - (-w + ((2 * 0 - 1) * (aspect * T)) • u + ((2 * 0 - 1) * T) • v) =
      (2 * T) • v := by
    funext i
    simp only [Pi.sub_apply, Pi.add_apply, Pi.neg_apply, Pi.smul_apply, smul_eq_mul]
    ring
  have huw : u ⬝ᵥ w = 0 := by rw [dotProduct_comm]; exact hwu
  rw [ea, eb, hcw]
  simp only [smul_dotProduct, dotProduct_smul, huv, huw, hvw, hu, hv, smul_eq_mul, mul_zero, mul_one, true_and]
  exact ⟨by positivity, by ring⟩

example : ∃ o a b : Fin 3 → ℝ, ((Camera.make (cv ![1, 2, 3]) (cv 0) (cv ![0, 0, 1]) (fin 45) (fin 2 : Fl exact64)).getRay (fin 0) (fin 0)).dir = cv o ∧
    ((Camera.make (cv ![1, 2, 3]) (cv 0) (cv ![0, 0, 1]) (fin 45) (fin 2 : Fl exact64)).getRay (fin 1) (fin 0)).dir = cv a ∧
    ((Camera.make (cv ![1, 2, 3]) (cv 0) (cv ![0, 0, 1]) (fin 45) (fin 2 : Fl exact64)).getRay (fin 0) (fin 1)).dir = cv b ∧
    (a - o) ⬝ᵥ (a - o) = 2 ^ 2 * ((b - o) ⬝ᵥ (b - o)) := by
  obtain ⟨h0, h1, h2, h3⟩ := camera_instance
  obtain ⟨o, a, b, k1, k2, k3, -, -, -, -, k4⟩ := C82_aspect (F := exact64) ![1, 2, 3] 0 ![0, 0, 1] 45 2 h0 h1 h2 h3
  exact ⟨o, a, b, k1, k2, k3, k4⟩

/-- C82: the back light sits as far behind the camera as the look-at point is in front of it, and shines toward the look-at point. -/
theorem C82_backlight [F.Exact] (eye target up : Fin 3 → ℝ) (vfov aspect : ℝ) (hw : eye ≠ target) :
    ∃ d : Fin 3 → ℝ, (Camera.make (cv eye) (cv target) (cv up) (fin vfov) (fin aspect : Fl F)).backlight = (cv (eye + (eye - target)), cv d) ∧
      d ⬝ᵥ d = 1 ∧ ∃ c : ℝ, 0 < c ∧ target = eye + c • d := by
  obtain ⟨d, hd, d1, c, hc, hdc⟩ := C02_normalize_unit (F := F) (target - eye) (sub_ne_zero.mpr hw.symm)
  refine ⟨d, ?_, d1, c, hc, ?_⟩
  · unfold Camera.backlight Camera.make
    simp only [cv_sub, hd, ofNat_def, cv_smul]
    congr 2
    funext i
    simp
    ring
  · have : target - eye = c • d := funext fun i => hdc i
    rw [← this]; abel

example : ∃ d : Fin 3 → ℝ, (Camera.make (cv ![1, 2, 3]) (cv 0) (cv ![0, 0, 1]) (fin 45) (fin 2 : Fl exact64)).backlight = (cv (![1, 2, 3] + (![1, 2, 3] - 0)), cv d) ∧
    d ⬝ᵥ d = 1 := by
  obtain ⟨d, h1, h2, -⟩ := C82_backlight (F := exact64) ![1, 2, 3] 0 ![0, 0, 1] 45 2 camera_instance.2.2.1
  exact ⟨d, h1, h2⟩

/-- A camera at `(0,0,1)` looking at the origin with 90 degrees. -/
theorem cameraExample_exact [F.Exact] (s t : ℝ) :
    (Camera.make (cv ![0, 0, 1]) (cv 0) (cv ![0, 1, 0]) (fin 90) (fin 1 : Fl F)).getRay (fin s) (fin t) =
      ⟨cv ![0, 0, 1], cv ![2 * s - 1, 2 * t - 1, -1]⟩ := by
  have hne : (![0, 0, 1] : Fin 3 → ℝ) ≠ 0 := fun h => by have := congrFun h 2; simp at this
  have hup : (![0, 1, 0] : Fin 3 → ℝ) ⨯₃ (![0, 0, 1] - 0) ≠ 0 := by
    intro h
    have := congrFun h 0
    simp [cross_apply] at this
  obtain ⟨u, v, w, ⟨hu, hv, hw1, huv, hvw, hwu, hx⟩, ⟨c, hc, hcw⟩, hpos, h0, h⟩ :=
    C82_rays (F := F) ![0, 0, 1] 0 ![0, 1, 0] 90 1 (by norm_num) (by norm_num) hne hup
  have hT : Real.tan (90 * Real.pi / 180 / 2) = 1 := by
    rw [show 90 * Real.pi / 180 / 2 = Real.pi / 4 by ring, Real.tan_pi_div_four]
  rw [h, hT]
  have c0 := congrFun hcw 0
  have c1 := congrFun hcw 1
  have c2 := congrFun hcw 2
  simp [hc.ne'] at c0 c1 c2
  simp only [dotProduct, Fin.sum_univ_three, c0, c1] at hw1 hvw hwu hu hv huv hpos h0
  simp at hw1 hvw hwu hu hv huv hpos h0
  have hw2 : w 2 = 1 := by
    have hp : 0 < w 2 := by
      rcases lt_trichotomy (w 2) 0 with hl | hl | hl
      · nlinarith
      · rw [hl] at c2; simp at c2
      · exact hl
    nlinarith
  have hv2 : v 2 = 0 := by simpa [hw2] using hvw
  have hu2 : u 2 = 0 := by simpa [hw2] using hwu
  have hx2 := congrFun hx 2
  simp only [cross_apply] at hx2
  simp [hw2, h0] at hx2
  have hu0 : u 0 = 1 := by
    have h1 : u 0 * u 0 = 1 := by simpa [h0, hu2] using hu
    have h2 : 0 < u 0 := by
      rcases lt_trichotomy (u 0) 0 with hl | hl | hl
      · nlinarith
      · rw [hl] at h1; simp at h1
      · exact hl
    nlinarith
  have hv1 : v 1 = 1 := by simpa [hu0] using hx2
  have hv0 : v 0 = 0 := by simpa [h0, hu2, hu0, hv2] using huv
  congr 2
  funext i
  fin_cases i <;> simp [c0, c1, hw2, hv2, hu2, hu0, hv1, hv0, h0]

theorem cameraExample (s t : ℝ) :
    (Camera.make (cv ![0, 0, 1]) (cv 0) (cv ![0, 1, 0]) (fin 90) (fin 1 : Fl exact64)).getRay (fin s) (fin t) =
      ⟨cv ![0, 0, 1], cv ![2 * s - 1, 2 * t - 1, -1]⟩ := cameraExample_exact s t

end DRT
