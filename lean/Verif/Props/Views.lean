import Mathlib.Analysis.Real.Pi.Bounds
import Mathlib.Data.String.Basic
import Verif.Model.Scenes
import Verif.Props.Camera
import Verif.Props.Disk
import Verif.Props.Ellipsoid

/-! # C108-C110: which points a camera sees, the light behind the camera, and the animation of the ellipsoid -/

namespace DRT
open Scalar Fl Matrix

variable {F : Fmt}

/-- The coordinates of a vector in an orthonormal frame. -/
theorem Frame.expand {u v w : Fin 3 → ℝ} (h : Frame u v w) (q : Fin 3 → ℝ) : q = (q ⬝ᵥ u) • u + (q ⬝ᵥ v) • v + (q ⬝ᵥ w) • w := by
  obtain ⟨hu, hv, hw, huv, hvw, hwu, -⟩ := h
  have hA : (Matrix.of ![u, v, w]) * (Matrix.of ![u, v, w])ᵀ = 1 := by
    ext i j
    rw [Matrix.mul_apply']
    fin_cases i <;> fin_cases j
    · show u ⬝ᵥ u = 1; exact hu
    · show u ⬝ᵥ v = 0; exact huv
    · show u ⬝ᵥ w = 0; rw [dotProduct_comm]; exact hwu
    · show v ⬝ᵥ u = 0; rw [dotProduct_comm]; exact huv
    · show v ⬝ᵥ v = 1; exact hv
    · show v ⬝ᵥ w = 0; exact hvw
    · show w ⬝ᵥ u = 0; exact hwu
    · show w ⬝ᵥ v = 0; rw [dotProduct_comm]; exact hvw
    · show w ⬝ᵥ w = 1; exact hw
  have hB := mul_eq_one_comm.mp hA
  have : (Matrix.of ![u, v, w])ᵀ *ᵥ ((Matrix.of ![u, v, w]) *ᵥ q) = q := by rw [mulVec_mulVec, hB, one_mulVec]
  rw [← this]
  funext i
  rw [this]
  conv_lhs => rw [← this]
  simp only [mulVec, dotProduct, Fin.sum_univ_three, Matrix.transpose_apply, Matrix.of_apply, Matrix.cons_val_zero, Matrix.cons_val_one,
    Matrix.cons_val, Pi.add_apply, Pi.smul_apply, smul_eq_mul]
  ring

/-- C108: the camera is a perspective projection. There is an orthonormal frame with `backward` pointing from the look-at
point to the eye, such that a point lies on a ray of the image, in front of the eye, exactly if it lies in the pyramid with
the given opening and aspect ratio. -/
theorem C108_visible [F.Exact] (eye target up : Fin 3 → ℝ) (vfov aspect : ℝ) (h0 : 0 < vfov) (h1 : vfov < 180) (ha : 0 < aspect)
    (hw : eye ≠ target) (hup : up ⨯₃ (eye - target) ≠ 0) :
    ∃ right upward backward : Fin 3 → ℝ, Frame right upward backward ∧ (∃ c : ℝ, 0 < c ∧ eye - target = c • backward) ∧
      0 < upward ⬝ᵥ up ∧ right ⬝ᵥ up = 0 ∧ ∀ q : Fin 3 → ℝ,
        (∃ s t z : ℝ, (0 ≤ s ∧ s ≤ 1) ∧ (0 ≤ t ∧ t ≤ 1) ∧ 0 < z ∧
          ((Camera.make (cv eye) (cv target) (cv up) (fin vfov) (fin aspect : Fl F)).getRay (fin s) (fin t)).at (fin z) = cv q) ↔
        0 < (eye - q) ⬝ᵥ backward ∧
        |(q - eye) ⬝ᵥ right| ≤ aspect * Real.tan (vfov * Real.pi / 180 / 2) * ((eye - q) ⬝ᵥ backward) ∧
        |(q - eye) ⬝ᵥ upward| ≤ Real.tan (vfov * Real.pi / 180 / 2) * ((eye - q) ⬝ᵥ backward) := by
  obtain ⟨u, v, w, hf, hc, hvu, huu, h⟩ := C82_rays (F := F) eye target up vfov aspect h0 h1 hw hup
  refine ⟨u, v, w, hf, hc, hvu, huu, fun q => ?_⟩
  have hT : 0 < Real.tan (vfov * Real.pi / 180 / 2) := by
    have hp := Real.pi_pos
    apply Real.tan_pos_of_pos_of_lt_pi_div_two
    · positivity
    · have : vfov * Real.pi < 180 * Real.pi := by nlinarith
      linarith
  generalize Real.tan (vfov * Real.pi / 180 / 2) = T at hT h ⊢
  have hx := hf.expand (q - eye)
  obtain ⟨hu, hv, hw1, huv, hvw, hwu, -⟩ := hf
  have hvu' : v ⬝ᵥ u = 0 := by rw [dotProduct_comm]; exact huv
  have hwv' : w ⬝ᵥ v = 0 := by rw [dotProduct_comm]; exact hvw
  have huw' : u ⬝ᵥ w = 0 := by rw [dotProduct_comm]; exact hwu
  have hneg : (eye - q) ⬝ᵥ w = -((q - eye) ⬝ᵥ w) := by rw [← neg_dotProduct, neg_sub]
  rw [hneg]
  constructor
  · rintro ⟨s, t, z, ⟨hs0, hs1⟩, ⟨ht0, ht1⟩, hz, hq⟩
    rw [h, ray_at_cv, cv_inj] at hq
    have hqe : q - eye = z • (-w + ((2 * s - 1) * (aspect * T)) • u + ((2 * t - 1) * T) • v) := by rw [← hq]; abel
    have e1 : (q - eye) ⬝ᵥ u = z * ((2 * s - 1) * (aspect * T)) := by
      rw [hqe]; simp only [smul_dotProduct, add_dotProduct, neg_dotProduct, smul_eq_mul, hu, hvu', hwu]; ring
    have e2 : (q - eye) ⬝ᵥ v = z * ((2 * t - 1) * T) := by
      rw [hqe]; simp only [smul_dotProduct, add_dotProduct, neg_dotProduct, smul_eq_mul, hv, huv, hwv']; ring
    have e3 : (q - eye) ⬝ᵥ w = -z := by
      rw [hqe]; simp only [smul_dotProduct, add_dotProduct, neg_dotProduct, smul_eq_mul, hw1, hvw, huw']; ring
    rw [e1, e2, e3, neg_neg]
    refine ⟨hz, ?_, ?_⟩
    · rw [abs_le]
      have : 0 < aspect * T * z := by positivity
      constructor <;> nlinarith
    · rw [abs_le]
      have : 0 < T * z := by positivity
      constructor <;> nlinarith
  · rintro ⟨hz, hx1, hx2⟩
    obtain ⟨z, hzd⟩ : ∃ z, z = -((q - eye) ⬝ᵥ w) := ⟨_, rfl⟩
    obtain ⟨x, hxd⟩ : ∃ x, x = (q - eye) ⬝ᵥ u := ⟨_, rfl⟩
    obtain ⟨y, hyd⟩ : ∃ y, y = (q - eye) ⬝ᵥ v := ⟨_, rfl⟩
    rw [← hzd] at hz hx1 hx2
    rw [← hxd] at hx1
    rw [← hyd] at hx2
    have hk1 : 0 < aspect * T * z := by positivity
    have hk2 : 0 < T * z := by positivity
    rw [abs_le] at hx1 hx2
    refine ⟨(x / (aspect * T * z) + 1) / 2, (y / (T * z) + 1) / 2, z, ⟨?_, ?_⟩, ⟨?_, ?_⟩, hz, ?_⟩
    · have : -1 ≤ x / (aspect * T * z) := by rw [le_div_iff₀ hk1]; linarith
      linarith
    · have : x / (aspect * T * z) ≤ 1 := by rw [div_le_iff₀ hk1]; linarith
      linarith
    · have : -1 ≤ y / (T * z) := by rw [le_div_iff₀ hk2]; linarith
      linarith
    · have : y / (T * z) ≤ 1 := by rw [div_le_iff₀ hk2]; linarith
      linarith
    · rw [h, ray_at_cv, cv_inj]
      rw [← hxd, ← hyd, show (q - eye) ⬝ᵥ w = -z by linarith] at hx
      have hq : q = eye + (q - eye) := by abel
      rw [hq, hx]
      funext i
      simp only [Pi.add_apply, Pi.smul_apply, Pi.neg_apply, smul_eq_mul]
      field_simp
      ring

/-- C108: two different places of the image never show the same point. -/
theorem C108_unique [F.Exact] (eye target up : Fin 3 → ℝ) (vfov aspect : ℝ) (h0 : 0 < vfov) (h1 : vfov < 180) (ha : 0 < aspect)
    (hw : eye ≠ target) (hup : up ⨯₃ (eye - target) ≠ 0) (s t z s' t' z' : ℝ) (hz : z ≠ 0)
    (hq : ((Camera.make (cv eye) (cv target) (cv up) (fin vfov) (fin aspect : Fl F)).getRay (fin s) (fin t)).at (fin z) =
      ((Camera.make (cv eye) (cv target) (cv up) (fin vfov) (fin aspect : Fl F)).getRay (fin s') (fin t')).at (fin z')) :
    s = s' ∧ t = t' ∧ z = z' := by
  obtain ⟨u, v, w, ⟨hu, hv, hw1, huv, hvw, hwu, -⟩, hc, hvu, huu, h⟩ := C82_rays (F := F) eye target up vfov aspect h0 h1 hw hup
  have hT : 0 < Real.tan (vfov * Real.pi / 180 / 2) := by
    have hp := Real.pi_pos
    apply Real.tan_pos_of_pos_of_lt_pi_div_two
    · positivity
    · have : vfov * Real.pi < 180 * Real.pi := by nlinarith
      linarith
  generalize Real.tan (vfov * Real.pi / 180 / 2) = T at hT h ⊢
  have hvu' : v ⬝ᵥ u = 0 := by rw [dotProduct_comm]; exact huv
  have hwv' : w ⬝ᵥ v = 0 := by rw [dotProduct_comm]; exact hvw
  have huw' : u ⬝ᵥ w = 0 := by rw [dotProduct_comm]; exact hwu
  rw [h, h, ray_at_cv, ray_at_cv, cv_inj, add_right_inj] at hq
  have e1 := congrArg (· ⬝ᵥ u) hq
  have e2 := congrArg (· ⬝ᵥ v) hq
  have e3 := congrArg (· ⬝ᵥ w) hq
  simp only [smul_dotProduct, add_dotProduct, neg_dotProduct, smul_eq_mul, hu, hvu', hwu] at e1
  simp only [smul_dotProduct, add_dotProduct, neg_dotProduct, smul_eq_mul, hv, huv, hwv'] at e2
  simp only [smul_dotProduct, add_dotProduct, neg_dotProduct, smul_eq_mul, hw1, hvw, huw'] at e3
  obtain rfl : z = z' := by linarith
  have h4 := mul_left_cancel₀ hz e1
  have h5 := mul_left_cancel₀ hz e2
  have hk : aspect * T ≠ 0 := by positivity
  have h6 : (2 * s - 1) = 2 * s' - 1 := mul_right_cancel₀ hk (by linarith)
  have h7 : (2 * t - 1) = 2 * t' - 1 := mul_right_cancel₀ hT.ne' (by linarith)
  exact ⟨by linarith, by linarith, rfl⟩

/-- The point `(1/2, 1/2, 0)` is in the square picture of a camera at `(0, 0, 1)` with 90 degrees. -/
example : ∃ s t z : ℝ, (0 ≤ s ∧ s ≤ 1) ∧ (0 ≤ t ∧ t ≤ 1) ∧ 0 < z ∧
    ((Camera.make (cv ![0, 0, 1]) (cv 0) (cv ![0, 1, 0]) (fin 90) (fin 1 : Fl exact64)).getRay (fin s) (fin t)).at (fin z) =
      cv ![1 / 2, 1 / 2, 0] := by
  have e1 : (![0, 0, 1] : Fin 3 → ℝ) ≠ 0 := fun h => by have := congrFun h 2; simp at this
  have e2 : (![0, 1, 0] : Fin 3 → ℝ) ⨯₃ (![0, 0, 1] - 0) ≠ 0 := fun h => by
    have := congrFun h 0; simp [cross_apply] at this
  obtain ⟨u, v, w, hf, ⟨c, hc, hcw⟩, hvu, huu, h⟩ := C108_visible (F := exact64) ![0, 0, 1] 0 ![0, 1, 0] 90 1 (by norm_num) (by norm_num) one_pos e1 e2
  rw [h]
  have htan : Real.tan (90 * Real.pi / 180 / 2) = 1 := by rw [← Real.tan_pi_div_four]; congr 1; ring
  rw [htan]
  have hww := hf.2.2.1
  have hz : (![1/2, 1/2, 0] - ![0, 0, 1] : Fin 3 → ℝ) = ![1/2, 1/2, -1] := by
    funext i; fin_cases i <;> norm_num
  have hz' : (![0, 0, 1] - ![1/2, 1/2, 0] : Fin 3 → ℝ) = ![-1/2, -1/2, 1] := by
    funext i; fin_cases i <;> norm_num
  have hc1 : c = 1 := by
    have : (![0, 0, 1] - 0 : Fin 3 → ℝ) ⬝ᵥ (![0, 0, 1] - 0) = 1 := by simp [dotProduct, Fin.sum_univ_three]
    rw [hcw] at this
    simp only [smul_dotProduct, dotProduct_smul, smul_eq_mul, hww] at this
    nlinarith
  have hw : w = ![0, 0, 1] := by rw [hc1, one_smul, sub_zero] at hcw; exact hcw.symm
  have hwu := hf.2.2.2.2.2.1
  have hvw := hf.2.2.2.2.1
  have hun := hf.1
  have hvn := hf.2.1
  subst hw
  rw [hz, hz']
  simp [dotProduct, Fin.sum_univ_three] at hwu hvw hun hvn huu ⊢
  have h2 := abs_le_of_sq_le_sq' (a := u 0) (b := 1) (by nlinarith [sq_nonneg (u 1)]) zero_le_one
  have h3 := abs_le_of_sq_le_sq' (a := v 1) (b := 1) (by nlinarith [sq_nonneg (v 0)]) zero_le_one
  have h4 := abs_le_of_sq_le_sq' (a := v 0) (b := 1) (by nlinarith [sq_nonneg (v 1)]) zero_le_one
  rw [hwu, hvw, huu, abs_le, abs_le]
  refine ⟨⟨?_, ?_⟩, ?_, ?_⟩ <;> linarith [h2.1, h2.2, h3.1, h3.2, h4.1, h4.2]

/-! ## the light behind the camera -/

/-- C109: the disk that the programs put behind the camera can be built, and no ray of the camera hits it. -/
theorem C109_unseen [F.Exact] (eye target up : Fin 3 → ℝ) (vfov aspect : ℝ) (h0 : 0 < vfov) (h1 : vfov < 180)
    (hw : eye ≠ target) (hup : up ⨯₃ (eye - target) ≠ 0) :
    ∃ disk, backlightDisk (Camera.make (cv eye) (cv target) (cv up) (fin vfov) (fin aspect : Fl F)) = some disk ∧
      ∀ (s t tmin : ℝ) (tmax : Fl F) (rec : HitRecord (Fl F)), 0 ≤ tmin → isNaN tmax = false →
        (disk.hit ((Camera.make (cv eye) (cv target) (cv up) (fin vfov) (fin aspect : Fl F)).getRay (fin s) (fin t))
          (fin tmin) tmax rec).1 = false := by
  obtain ⟨n, hn, hn1, k, hk, hkn⟩ := C82_backlight (F := F) eye target up vfov aspect hw
  obtain ⟨disk, W, hdisk, -⟩ := C61_rotation (F := F) 10 (eye + (eye - target)) n hn1
  have hmake : backlightDisk (Camera.make (cv eye) (cv target) (cv up) (fin vfov) (fin aspect : Fl F)) = some disk := by
    unfold backlightDisk
    rw [hn, ofNat_def]
    exact hdisk
  refine ⟨disk, hmake, fun s t tmin tmax rec htm hmx => ?_⟩
  obtain ⟨u, v, w, ⟨hu, hv, hw1, huv, hvw, hwu, -⟩, ⟨c, hc, hcw⟩, -, -, h⟩ := C82_rays (F := F) eye target up vfov aspect h0 h1 hw hup
  have hnw : n = -(c / k) • w := by
    have : k • n = -(c • w) := by rw [← hcw, hkn]; abel
    have h2 : n = k⁻¹ • (k • n) := by rw [smul_smul, inv_mul_cancel₀ hk.ne', one_smul]
    rw [h2, this]
    funext i
    simp only [Pi.smul_apply, Pi.neg_apply, smul_eq_mul]
    ring
  rw [h]
  have hvw' : v ⬝ᵥ w = 0 := hvw
  have huw : u ⬝ᵥ w = 0 := by rw [dotProduct_comm]; exact hwu
  obtain ⟨dir, hdir⟩ : ∃ dir, dir = -w + ((2 * s - 1) * (aspect * Real.tan (vfov * Real.pi / 180 / 2))) • u +
      ((2 * t - 1) * Real.tan (vfov * Real.pi / 180 / 2)) • v := ⟨_, rfl⟩
  rw [← hdir]
  have hdn : dir ⬝ᵥ n = c / k := by
    rw [hnw, hdir]
    simp only [smul_dotProduct, add_dotProduct, neg_dotProduct, dotProduct_smul, smul_eq_mul, hw1, hvw, huw]
    ring
  have hck : 0 < c / k := by positivity
  have hf := C62_nearest (F := F) 10 (eye + (eye - target)) n hn1 eye dir (by rw [hdn]; exact hck.ne') (fin tmin) rfl disk hdisk tmax rec hmx
  rw [← Bool.not_eq_true, hf.1]
  rintro ⟨z, ⟨hz, -⟩, hzS, -⟩
  rw [le_fin, decide_eq_true_eq] at hz
  change (eye + z • dir - (eye + (eye - target))) ⬝ᵥ n = 0 at hzS
  have e : eye + z • dir - (eye + (eye - target)) = k • n + z • dir := by
    rw [show eye + z • dir - (eye + (eye - target)) = target - eye + z • dir by abel]
    rw [hkn]; abel
  rw [e] at hzS
  simp only [add_dotProduct, smul_dotProduct, smul_eq_mul, hn1, hdn] at hzS
  have : 0 ≤ z * (c / k) := mul_nonneg (by linarith) hck.le
  linarith

/-- C109: the light does reach the scene: a ray from the look-at point towards the eye hits the disk, in its centre. -/
theorem C109_shines [F.Exact] (eye target up : Fin 3 → ℝ) (vfov aspect : ℝ) (hw : eye ≠ target) (disk : Disk (Fl F))
    (hdisk : backlightDisk (Camera.make (cv eye) (cv target) (cv up) (fin vfov) (fin aspect : Fl F)) = some disk)
    (tmin : ℝ) (htm : tmin ≤ 2) (rec : HitRecord (Fl F)) :
    ∃ rec', disk.hit ⟨cv target, cv (eye - target)⟩ (fin tmin) pinf rec = (true, rec') ∧ rec'.t = fin 2 ∧
      rec'.p = cv (eye + (eye - target)) := by
  obtain ⟨n, hn, hn1, k, hk, hkn⟩ := C82_backlight (F := F) eye target up vfov aspect hw
  unfold backlightDisk at hdisk
  rw [hn, ofNat_def] at hdisk
  have e : eye - target = -(k • n) := by rw [hkn]; abel
  have hdn : (eye - target) ⬝ᵥ n = -k := by rw [e, neg_dotProduct, smul_dotProduct, hn1, smul_eq_mul, mul_one]
  have hf := C62_nearest (F := F) 10 (eye + (eye - target)) n hn1 target (eye - target) (by rw [hdn]; linarith) (fin tmin) rfl
    disk hdisk pinf rec rfl
  have hc : ∀ z : ℝ, target + z • (eye - target) - (eye + (eye - target)) = (z - 2) • (eye - target) := by
    intro z; funext i; simp only [Pi.add_apply, Pi.sub_apply, Pi.smul_apply, smul_eq_mul]; ring
  have hmem : target + (2 : ℝ) • (eye - target) ∈ diskSet 10 (eye + (eye - target)) n := by
    constructor
    · rw [hc]; simp
    · rw [hc]; simp
  have hhit := hf.1.mpr ⟨2, ⟨by rw [le_fin, decide_eq_true_eq]; exact htm, by simp⟩, hmem⟩
  obtain ⟨z, ht, hp, -, hzS, -⟩ := hf.2 hhit
  have hz : z = 2 := by
    have := hzS.1
    rw [hc, smul_dotProduct, hdn, smul_eq_mul] at this
    have h2 : z - 2 = 0 := by
      rcases mul_eq_zero.mp this with h | h
      · exact h
      · linarith
    linarith
  subst hz
  refine ⟨_, Prod.ext hhit rfl, ht, ?_⟩
  rw [hp, cv_inj]
  funext i
  simp only [Pi.add_apply, Pi.sub_apply, Pi.smul_apply, smul_eq_mul]
  ring

/-- A camera at `(0, 0, 7)` looking at the origin. -/
example (rec : HitRecord (Fl exact64)) : ∃ disk rec', backlightDisk (Camera.make (cv ![0, 0, 7]) (cv 0) (cv ![0, 1, 0]) (fin 40) (fin 1 : Fl exact64)) = some disk ∧
    disk.hit ⟨cv 0, cv (![0, 0, 7] - 0)⟩ (fin 0) pinf rec = (true, rec') := by
  have e1 : (![0, 0, 7] : Fin 3 → ℝ) ≠ 0 := fun h => by have := congrFun h 2; simp at this
  have e2 : (![0, 1, 0] : Fin 3 → ℝ) ⨯₃ (![0, 0, 7] - 0) ≠ 0 := fun h => by
    have := congrFun h 0; simp [cross_apply] at this
  obtain ⟨disk, hd, -⟩ := C109_unseen (F := exact64) ![0, 0, 7] 0 ![0, 1, 0] 40 1 (by norm_num) (by norm_num) e1 e2
  obtain ⟨rec', h, -⟩ := C109_shines (F := exact64) ![0, 0, 7] 0 ![0, 1, 0] 40 1 e1 disk hd 0 (by norm_num) rec
  exact ⟨disk, rec', hd, h⟩

/-! ## the animation of the ellipsoid -/

/-- The eye of frame `i`. -/
noncomputable def frameEye (i : ℕ) : Fin 3 → ℝ := ![7 * Real.cos (2 * Real.pi * i / 360), 0, 7 * Real.sin (2 * Real.pi * i / 360)]

theorem frameCamera_eq [F.Exact] (i : ℕ) : (frameCamera i : Camera (Fl F)) =
    Camera.make (cv (frameEye i)) (cv 0) (cv ![0, 1, 0]) (fin 40) (fin (16 / 10)) := by
  have h1 : (frameAngle i : Fl F) = fin (2 * Real.pi * i / 360) := by
    unfold frameAngle
    simp only [ofNat_def, lit_def, pi_def, Fl.mul_fin]
    rw [div_fin _ (by norm_num)]
    norm_num
  have e1 : (![7 * cos (frameAngle i), 0, 7 * sin (frameAngle i)] : Vec (Fl F) 3) = cv (frameEye i) := by
    rw [h1]
    funext k
    fin_cases k
    · show (7 : Fl F) * cos (fin _) = fin _
      rw [ofNat_def, cos_fin, Fl.mul_fin]; norm_num [frameEye]
    · show (0 : Fl F) = fin _
      rw [ofNat_def]; norm_num [frameEye]
    · show (7 : Fl F) * sin (fin _) = fin _
      rw [ofNat_def, sin_fin, Fl.mul_fin]; norm_num [frameEye]
  have e2 : (![0, 0, 0] : Vec (Fl F) 3) = cv 0 := by
    funext k
    fin_cases k <;> (show (0 : Fl F) = fin _; rw [ofNat_def]; norm_num)
  have e3 : (![0, 1, 0] : Vec (Fl F) 3) = cv ![0, 1, 0] := by
    funext k
    fin_cases k
    · show (0 : Fl F) = fin _; rw [ofNat_def]; norm_num
    · show (1 : Fl F) = fin _; rw [ofNat_def]; norm_num
    · show (0 : Fl F) = fin _; rw [ofNat_def]; norm_num
  have e4 : (40 : Fl F) = fin 40 := by rw [ofNat_def]; norm_num
  have e5 : (lit (16 / 10) : Fl F) = fin (16 / 10) := by rw [lit_def]; norm_num
  unfold frameCamera
  rw [e1, e2, e3, e4, e5]

theorem frameEye_sq (i : ℕ) : frameEye i ⬝ᵥ frameEye i = 49 := by
  unfold frameEye
  simp only [dotProduct, Fin.sum_univ_three, Matrix.cons_val_zero, Matrix.cons_val_one, Matrix.cons_val]
  have := Real.cos_sq_add_sin_sq (2 * Real.pi * i / 360)
  nlinarith

/-- C110: every point of the ellipsoid is in the picture of every frame. -/
theorem C110_visible [F.Exact] (i : ℕ) (p : Fin 3 → ℝ) (hp : p ∈ ellipsoidSet 0 ![195 / 100, 15 / 10, 25 / 10]) :
    ∃ s t z : ℝ, (0 ≤ s ∧ s ≤ 1) ∧ (0 ≤ t ∧ t ≤ 1) ∧ 0 < z ∧
      ((frameCamera i : Camera (Fl F)).getRay (fin s) (fin t)).at (fin z) = cv p := by
  have hee := frameEye_sq i
  have e1 : frameEye i ≠ 0 := fun h => by rw [h] at hee; simp at hee
  have e2 : (![0, 1, 0] : Fin 3 → ℝ) ⨯₃ (frameEye i - 0) ≠ 0 := fun h => by
    have h0 := congrFun h 0
    have h2 := congrFun h 2
    simp [cross_apply] at h0 h2
    apply e1
    funext k
    fin_cases k
    · exact h2
    · rfl
    · exact h0
  rw [frameCamera_eq]
  obtain ⟨u, v, w, hf, ⟨c, hc, hcw⟩, hvu, huu, h⟩ := C108_visible (F := F) (frameEye i) 0 ![0, 1, 0] 40 (16 / 10) (by norm_num) (by norm_num)
    (by norm_num) e1 e2
  rw [h]
  have hx := hf.expand ![0, 1, 0]
  obtain ⟨hu, hv, hw1, huv, hvw, hwu, -⟩ := hf
  rw [sub_zero] at hcw
  have hc7 : c = 7 := by
    rw [hcw] at hee
    simp only [smul_dotProduct, dotProduct_smul, smul_eq_mul, hw1] at hee
    nlinarith
  subst hc7
  have hw1' : w 1 = 0 := by
    have := congrFun hcw 1
    simp [frameEye] at this
    exact this
  -- the upward direction is the second axis
  have hv1 : v 1 = 1 ∧ v 0 = 0 ∧ v 2 = 0 := by
    have a1 : (![0, 1, 0] : Fin 3 → ℝ) ⬝ᵥ u = 0 := by rw [dotProduct_comm]; exact huu
    have a2 : (![0, 1, 0] : Fin 3 → ℝ) ⬝ᵥ w = 0 := by simp [dotProduct, Fin.sum_univ_three, hw1']
    have a3 : (![0, 1, 0] : Fin 3 → ℝ) ⬝ᵥ v = v 1 := by simp [dotProduct, Fin.sum_univ_three]
    rw [a1, a2, a3] at hx
    have b0 := congrFun hx 0
    have b1 := congrFun hx 1
    have b2 := congrFun hx 2
    simp at b0 b1 b2
    have : 0 < v 1 := by
      have : v ⬝ᵥ ![0, 1, 0] = v 1 := by simp [dotProduct, Fin.sum_univ_three]
      rwa [this] at hvu
    refine ⟨by nlinarith, ?_, ?_⟩
    · rcases b0 with h | h <;> linarith
    · rcases b2 with h | h <;> linarith
  -- bounds for the ellipsoid
  have hp' : (p 0 / (195 / 100)) ^ 2 + (p 1 / (15 / 10)) ^ 2 + (p 2 / (25 / 10)) ^ 2 = 1 := by
    have := hp
    simp only [ellipsoidSet, Set.mem_setOf_eq] at this
    simpa using this
  have hp1 : |p 1| ≤ 3 / 2 := by
    apply abs_le_of_sq_le_sq _ (by norm_num)
    have h1 := sq_nonneg (p 0 / (195 / 100))
    have h2 := sq_nonneg (p 2 / (25 / 10))
    have : (p 1 / (15 / 10)) ^ 2 ≤ 1 := by linarith
    rw [div_pow] at this
    rw [div_le_iff₀ (by norm_num)] at this
    linarith
  have hpp : p ⬝ᵥ p ≤ (5 / 2) ^ 2 := by
    simp only [dotProduct, Fin.sum_univ_three]
    simp only [div_pow] at hp'
    nlinarith [sq_nonneg (p 0), sq_nonneg (p 1), sq_nonneg (p 2)]
  have hunit : ∀ n : Fin 3 → ℝ, n ⬝ᵥ n = 1 → |p ⬝ᵥ n| ≤ 5 / 2 := by
    intro n hn
    apply abs_le_of_sq_le_sq _ (by norm_num)
    have h3 : (p ⬝ᵥ n) ^ 2 ≤ (p ⬝ᵥ p) * (n ⬝ᵥ n) := by
      simp only [dotProduct, Fin.sum_univ_three]
      nlinarith [sq_nonneg (p 0 * n 1 - p 1 * n 0), sq_nonneg (p 1 * n 2 - p 2 * n 1), sq_nonneg (p 2 * n 0 - p 0 * n 2)]
    rw [hn, mul_one] at h3
    linarith
  have hT : Real.pi / 9 ≤ Real.tan (40 * Real.pi / 180 / 2) := by
    have hp := Real.pi_pos
    have : 40 * Real.pi / 180 / 2 = Real.pi / 9 := by ring
    rw [this]
    exact Real.le_tan (by positivity) (by linarith)
  have hpi := Real.pi_gt_d2
  generalize Real.tan (40 * Real.pi / 180 / 2) = T at hT ⊢
  have hdepth : (frameEye i - p) ⬝ᵥ w = 7 - p ⬝ᵥ w := by
    rw [sub_dotProduct, hcw, smul_dotProduct, hw1, smul_eq_mul, mul_one]
  have hbu : (p - frameEye i) ⬝ᵥ u = p ⬝ᵥ u := by
    rw [sub_dotProduct, hcw, smul_dotProduct, hwu, smul_zero, sub_zero]
  have hbv : (p - frameEye i) ⬝ᵥ v = p 1 := by
    have : w ⬝ᵥ v = 0 := by rw [dotProduct_comm]; exact hvw
    rw [sub_dotProduct, hcw, smul_dotProduct, this, smul_zero, sub_zero]
    simp [dotProduct, Fin.sum_univ_three, hv1.1, hv1.2.1, hv1.2.2]
  rw [hdepth, hbu, hbv]
  have h5 := abs_le.mp (hunit w hw1)
  have hdp : 9 / 2 ≤ 7 - p ⬝ᵥ w := by linarith [h5.2]
  have hTp : 314 / 900 ≤ T := by linarith
  refine ⟨by linarith, le_trans (hunit u hu) ?_, le_trans hp1 ?_⟩
  · nlinarith
  · nlinarith

/-- C110: the 360 frames show the ellipsoid from 360 different places, all at the distance 7. -/
theorem C110_places [F.Exact] (i j : ℕ) (hi : i < 360) (hj : j < 360)
    (h : (frameCamera i : Camera (Fl F)).origin = (frameCamera j).origin) : i = j := by
  rw [frameCamera_eq, frameCamera_eq] at h
  change cv (frameEye i) = cv (frameEye j) at h
  rw [cv_inj] at h
  have h0 := congrFun h 0
  have h2 := congrFun h 2
  simp [frameEye] at h0 h2
  have hpi := Real.pi_pos
  have hc : Real.cos (2 * Real.pi * i / 360 - 2 * Real.pi * j / 360) = 1 := by
    rw [Real.cos_sub, h0, h2]
    nlinarith [Real.cos_sq_add_sin_sq (2 * Real.pi * j / 360)]
  have hi' : (i : ℝ) < 360 := by exact_mod_cast hi
  have hj' : (j : ℝ) < 360 := by exact_mod_cast hj
  have hi0 : (0 : ℝ) ≤ i := Nat.cast_nonneg i
  have hj0 : (0 : ℝ) ≤ j := Nat.cast_nonneg j
  have := (Real.cos_eq_one_iff_of_lt_of_lt (by nlinarith) (by nlinarith)).mp hc
  have h3 : (i : ℝ) = j := by
    have h4 : 2 * Real.pi * (i - j) = 0 := by linarith
    rcases mul_eq_zero.mp h4 with h5 | h5
    · linarith
    · linarith
  exact_mod_cast h3

example : (frameCamera 10 : Camera (Fl exact64)).origin ≠ (frameCamera 350).origin :=
  fun h => absurd (C110_places 10 350 (by norm_num) (by norm_num) h) (by norm_num)

theorem lt_append_left {α : Type} [LT α] (l : List α) {x y : List α} (h : x < y) : l ++ x < l ++ y := by
  induction l with
  | nil => exact h
  | cons a l ih => exact List.cons_lt_cons_iff.mpr (Or.inr ⟨rfl, ih⟩)

theorem digitChar_lt {a b : ℕ} (h : a < b) (hb : b < 10) : Nat.digitChar a < Nat.digitChar b := by
  have : ∀ b < 10, ∀ a < b, Nat.digitChar a < Nat.digitChar b := by decide
  exact this b hb a h

/-- The number in a file name always has three digits. -/
theorem frameName_digits (i : ℕ) (hi : i < 1000) : (frameName i).toList = "ellipsoid_curvature_".toList ++
    ([Nat.digitChar (i / 100), Nat.digitChar (i / 10 % 10), Nat.digitChar (i % 10)] ++ ".png".toList) := by
  have h3 : (if i < 10 then "00" else if i < 100 then "0" else "").toList ++ (toString i).toList =
      [Nat.digitChar (i / 100), Nat.digitChar (i / 10 % 10), Nat.digitChar (i % 10)] := by
    rw [show toString i = i.repr from rfl, Nat.toList_repr]
    by_cases h1 : i < 10
    · rw [if_pos h1, Nat.toDigits_of_lt_base h1, Nat.div_eq_of_lt (by omega : i < 100), Nat.div_eq_of_lt h1, Nat.mod_eq_of_lt h1]
      rfl
    rw [if_neg h1, Nat.toDigits_of_base_le (by norm_num) (by omega)]
    by_cases h2 : i < 100
    · rw [if_pos h2, Nat.toDigits_of_lt_base (by omega), Nat.div_eq_of_lt h2, Nat.mod_eq_of_lt (by omega : i / 10 < 10)]
      rfl
    rw [if_neg h2, Nat.toDigits_of_base_le (by norm_num) (by omega), Nat.toDigits_of_lt_base (by omega), Nat.div_div_eq_div_mul]
    rfl
  unfold frameName
  simp only [String.toList_append]
  rw [List.append_assoc "ellipsoid_curvature_".toList, h3, List.append_assoc]

/-- C110: the alphabetical order of the file names is the order of the frames. -/
theorem C110_names (i j : ℕ) (hij : i < j) (hj : j < 1000) : frameName i < frameName j := by
  rw [String.lt_iff_toList_lt, frameName_digits i (by omega), frameName_digits j hj]
  apply lt_append_left
  simp only [List.cons_append, List.cons_lt_cons_iff]
  have a1 : i / 100 < j / 100 ∨ i / 100 = j / 100 := by omega
  rcases a1 with a1 | a1
  · exact Or.inl (digitChar_lt a1 (by omega))
  refine Or.inr ⟨by rw [a1], ?_⟩
  have a2 : i / 10 % 10 < j / 10 % 10 ∨ i / 10 % 10 = j / 10 % 10 := by omega
  rcases a2 with a2 | a2
  · exact Or.inl (digitChar_lt a2 (by omega))
  refine Or.inr ⟨by rw [a2], ?_⟩
  exact Or.inl (digitChar_lt (by omega) (by omega))

/-- Frames 9 and 10. -/
example : frameName 9 < frameName 10 ∧ frameName 9 = "ellipsoid_curvature_009.png" :=
  ⟨C110_names 9 10 (by norm_num) (by norm_num), by decide⟩

/-- A pole of the ellipsoid in frame 90. -/
example : ∃ s t z : ℝ, (0 ≤ s ∧ s ≤ 1) ∧ (0 ≤ t ∧ t ≤ 1) ∧ 0 < z ∧
    ((frameCamera 90 : Camera (Fl exact64)).getRay (fin s) (fin t)).at (fin z) = cv ![0, 0, 5 / 2] :=
  C110_visible 90 _ (by
    show (((0:ℝ) - 0) / (195 / 100)) ^ 2 + ((0 - 0) / (15 / 10)) ^ 2 + ((5 / 2 - 0) / (25 / 10)) ^ 2 = 1
    norm_num)

end DRT
