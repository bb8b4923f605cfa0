import Verif.Model.Programs
import Verif.Props.Disk
import Verif.Props.Programs
import Verif.Props.Sphere
import Verif.Props.Torus
import Verif.Props.Views

/-! # C154: how near a camera may be -/

namespace DRT
open Scalar Fl Matrix

variable {F : Fmt}

/-- The point is in the picture of the camera. -/
def InPicture (cam : Camera (Fl F)) (q : Fin 3 → ℝ) : Prop :=
  ∃ s t z : ℝ, (0 ≤ s ∧ s ≤ 1) ∧ (0 ≤ t ∧ t ≤ 1) ∧ 0 < z ∧ (cam.getRay (fin s) (fin t)).at (fin z) = cv q

theorem dot_unit_le {q n : Fin 3 → ℝ} (hn : n ⬝ᵥ n = 1) {r : ℝ} (hr : 0 ≤ r) (hq : q ⬝ᵥ q ≤ r ^ 2) : q ⬝ᵥ n ≤ r := by
  apply le_of_sq_le_sq _ hr
  have h3 : (q ⬝ᵥ n) ^ 2 ≤ (q ⬝ᵥ q) * (n ⬝ᵥ n) := by
    simp only [dotProduct, Fin.sum_univ_three]
    nlinarith [sq_nonneg (q 0 * n 1 - q 1 * n 0), sq_nonneg (q 1 * n 2 - q 2 * n 1), sq_nonneg (q 2 * n 0 - q 0 * n 2)]
  rw [hn, mul_one] at h3
  linarith

/-- C154: a ball around the look-at point is wholly in the picture exactly if its radius is at most the distance of the eye times the sine of
half the field of view, for pictures that are at least as wide as high. -/
theorem C154_ball [F.Exact] (eye target up : Fin 3 → ℝ) (vfov aspect : ℝ) (h0 : 0 < vfov) (h1 : vfov < 180) (ha : 1 ≤ aspect)
    (hw : eye ≠ target) (hup : up ⨯₃ (eye - target) ≠ 0) (r : ℝ) (hr : 0 ≤ r) :
    (∀ q : Fin 3 → ℝ, (q - target) ⬝ᵥ (q - target) ≤ r ^ 2 →
      InPicture (Camera.make (cv eye) (cv target) (cv up) (fin vfov) (fin aspect : Fl F)) q) ↔
    r ≤ Real.sqrt ((eye - target) ⬝ᵥ (eye - target)) * Real.sin (vfov * Real.pi / 360) := by
  obtain ⟨u, v, w, ⟨hu, hv, hw1, huv, hvw, hwu, -⟩, ⟨D, hD, hDw⟩, -, -, h⟩ := C108_visible (F := F) eye target up vfov aspect h0 h1
    (by linarith) hw hup
  have hdist : Real.sqrt ((eye - target) ⬝ᵥ (eye - target)) = D := by
    rw [hDw, smul_dotProduct, dotProduct_smul, hw1, smul_eq_mul, smul_eq_mul, mul_one, Real.sqrt_mul_self hD.le]
  rw [hdist]
  have hang : vfov * Real.pi / 180 / 2 = vfov * Real.pi / 360 := by ring
  rw [hang] at h
  obtain ⟨θ, hθ⟩ : ∃ θ, θ = vfov * Real.pi / 360 := ⟨_, rfl⟩
  rw [← hθ] at h ⊢
  have hpi := Real.pi_pos
  have t0 : 0 < θ := by rw [hθ]; positivity
  have t1 : θ < Real.pi / 2 := by rw [hθ]; nlinarith
  have hs : 0 < Real.sin θ := Real.sin_pos_of_pos_of_lt_pi t0 (by linarith)
  have hc : 0 < Real.cos θ := Real.cos_pos_of_mem_Ioo ⟨by linarith, t1⟩
  have hsc := Real.sin_sq_add_cos_sq θ
  have hwv : w ⬝ᵥ v = 0 := by rw [dotProduct_comm]; exact hvw
  have huw : u ⬝ᵥ w = 0 := by rw [dotProduct_comm]; exact hwu
  rw [Real.tan_eq_sin_div_cos] at h
  generalize Real.sin θ = S at hs hsc h ⊢
  generalize Real.cos θ = C at hc hsc h
  -- the coordinates of a point of the ball
  have key : ∀ q : Fin 3 → ℝ, (eye - q) ⬝ᵥ w = D - (q - target) ⬝ᵥ w ∧ (∀ n, w ⬝ᵥ n = 0 → (q - eye) ⬝ᵥ n = (q - target) ⬝ᵥ n) := by
    intro q
    have e : eye = target + D • w := by rw [← hDw]; abel
    refine ⟨?_, fun n hn => ?_⟩
    · rw [e, show target + D • w - q = D • w - (q - target) by abel, sub_dotProduct, smul_dotProduct, hw1, smul_eq_mul, mul_one]
    · rw [e, show q - (target + D • w) = (q - target) - D • w by abel, sub_dotProduct, smul_dotProduct, hn, smul_zero, sub_zero]
  constructor
  · intro hall
    -- the point where the ball touches the upper side
    obtain ⟨q, hq⟩ : ∃ q, q = target + r • (C • v + S • w) := ⟨_, rfl⟩
    have hqt : q - target = r • (C • v + S • w) := by rw [hq]; abel
    have hqq : (q - target) ⬝ᵥ (q - target) = r ^ 2 := by
      rw [hqt]
      simp only [smul_dotProduct, dotProduct_smul, add_dotProduct, dotProduct_add, smul_eq_mul, hv, hw1, hvw, hwv]
      linear_combination r ^ 2 * hsc
    have hqw : (q - target) ⬝ᵥ w = r * S := by
      rw [hqt]; simp only [smul_dotProduct, add_dotProduct, smul_eq_mul, hw1, hvw]; ring
    have hqv : (q - target) ⬝ᵥ v = r * C := by
      rw [hqt]; simp only [smul_dotProduct, add_dotProduct, smul_eq_mul, hv, hwv]; ring
    obtain ⟨-, -, h3⟩ := (h q).mp (hall q hqq.le)
    rw [(key q).1, (key q).2 v hwv, hqw, hqv, abs_of_nonneg (by positivity)] at h3
    rw [div_mul_eq_mul_div, le_div_iff₀ hc] at h3
    nlinarith
  · intro hle q hq
    refine (h q).mpr ?_
    rw [(key q).1, (key q).2 v hwv, (key q).2 u hwu]
    have hS1 : S < 1 := by nlinarith
    have hqw : (q - target) ⬝ᵥ w ≤ r := dot_unit_le hw1 hr hq
    have hside : ∀ n : Fin 3 → ℝ, n ⬝ᵥ n = 1 → n ⬝ᵥ w = 0 → |(q - target) ⬝ᵥ n| ≤ S / C * (D - (q - target) ⬝ᵥ w) := by
      intro n hn hnw
      have hwn : w ⬝ᵥ n = 0 := by rw [dotProduct_comm]; exact hnw
      have a1 : (q - target) ⬝ᵥ (C • n + S • w) ≤ r := dot_unit_le (by
        simp only [smul_dotProduct, dotProduct_smul, add_dotProduct, dotProduct_add, smul_eq_mul, hn, hw1, hnw, hwn]
        linear_combination hsc) hr hq
      have a2 : (q - target) ⬝ᵥ (-C • n + S • w) ≤ r := dot_unit_le (by
        simp only [smul_dotProduct, dotProduct_smul, add_dotProduct, dotProduct_add, smul_eq_mul, hn, hw1, hnw, hwn]
        linear_combination hsc) hr hq
      simp only [dotProduct_smul, dotProduct_add, smul_eq_mul] at a1 a2
      rw [div_mul_eq_mul_div, le_div_iff₀ hc]
      rcases abs_cases ((q - target) ⬝ᵥ n) with ⟨e, -⟩ | ⟨e, -⟩ <;> rw [e] <;> linarith
    have hdep : 0 < D - (q - target) ⬝ᵥ w := by nlinarith
    refine ⟨hdep, (hside u hu huw).trans ?_, hside v hv hvw⟩
    have : 0 ≤ S / C * (D - (q - target) ⬝ᵥ w) := mul_nonneg (div_nonneg hs.le hc.le) hdep.le
    rw [mul_assoc]
    exact le_mul_of_one_le_left this ha

/-- A lower bound for the sine of 20 degrees. -/
theorem sin20 : 338 / 1000 ≤ Real.sin (40 * Real.pi / 360) := by
  have h1 := Real.pi_gt_d2
  have h2 := Real.pi_lt_d2
  obtain ⟨x, hx⟩ : ∃ x, x = 40 * Real.pi / 360 := ⟨_, rfl⟩
  rw [← hx]
  have a1 : 3488 / 10000 < x := by rw [hx]; linarith
  have a2 : x < 35 / 100 := by rw [hx]; linarith
  have h3 := Real.sin_gt_sub_cube (by linarith : 0 < x)
  have h4 : x ^ 3 ≤ (35 / 100) ^ 3 := pow_le_pow_left₀ (by linarith) a2.le 3
  linarith

/-- C154: torus_curvature.cpp shows the whole torus. -/
theorem C154_torus [F.Exact] (rec0 temp0 : HitRecord (Fl F)) (c : Fin 3 → ℝ) (R r : ℝ)
    (ht : (TorusProgram.torus : Torus (Fl F)) = Torus.ofReal c R r) (q : Fin 3 → ℝ) (hq : q ∈ torusSet c R r) :
    InPicture (TorusProgram.scene rec0 temp0).camera q := by
  have h1 : (TorusProgram.torus : Torus (Fl F)) = Torus.ofReal 0 3 1 := by
    unfold TorusProgram.torus Torus.ofReal
    congr 1
    · exact cv_zero_vec
    · rw [ofNat_def]; norm_num
    · rw [ofNat_def]; norm_num
  rw [h1] at ht
  unfold Torus.ofReal at ht
  obtain ⟨e1, e2, e3⟩ := Torus.mk.inj ht
  rw [cv_inj] at e1
  rw [fin_inj] at e2 e3
  subst e1 e2 e3
  have hcam : (TorusProgram.scene rec0 temp0).camera = Camera.make (cv ![7 / 2, -7, -21 / 2]) (cv 0) (cv ![0, 1, 0]) (fin 40) (fin 1 : Fl F) := by
    show Camera.make ![lit (7 / 10) * 5, -10 * lit (7 / 10), -15 * lit (7 / 10)] ![0, 0, 0] ![0, 1, 0] 40 1 = _
    congr 1
    · simp only [fl, cv_vec3]; norm_num
    · exact cv_zero_vec
    · simp only [fl, cv_vec3]; norm_num
    · simp only [fl]; norm_num
    · simp only [fl]; norm_num
  rw [hcam]
  refine (C154_ball (F := F) ![7 / 2, -7, -21 / 2] 0 ![0, 1, 0] 40 1 (by norm_num) (by norm_num) le_rfl
    (fun h => by have := congrFun h 0; norm_num at this)
    (fun h => by have := congrFun h 0; simp [cross_apply] at this) 4 (by norm_num)).mpr ?_ q ?_
  · have e : (![7 / 2, -7, -21 / 2] - 0 : Fin 3 → ℝ) ⬝ᵥ (![7 / 2, -7, -21 / 2] - 0) = 343 / 2 := by
      simp [dotProduct, Fin.sum_univ_three]; norm_num
    rw [e]
    have : 13 ≤ Real.sqrt (343 / 2) := Real.le_sqrt_of_sq_le (by norm_num)
    nlinarith [sin20]
  · rw [sub_zero]
    obtain ⟨a, b, rfl⟩ := hq
    simp only [torusAt, dotProduct, Fin.sum_univ_three]
    simp
    have h1 := Real.sin_sq_add_cos_sq a
    have h2 := Real.sin_sq_add_cos_sq b
    have h3 := Real.cos_le_one a
    have h4 := Real.cos_le_one b
    nlinarith

theorem DiskProgram.disk_fin [F.Exact] : (DiskProgram.disk : Option (Disk (Fl F))) =
    some (Disk.ofReal 1 0 ![1 / Real.sqrt 2, 0, -(1 / Real.sqrt 2)]) := by
  have hm : (DiskProgram.disk : Option (Disk (Fl F))) = Disk.make (fin 1) (cv 0) (cv ![1 / Real.sqrt 2, 0, -(1 / Real.sqrt 2)]) := by
    have h2 : Real.sqrt 2 ≠ 0 := by positivity
    unfold DiskProgram.disk
    congr 1
    · rw [ofNat_def]; norm_num
    · exact cv_zero_vec
    · have h : (1 / Scalar.sqrt 2 : Fl F) = fin (1 / Real.sqrt 2) := by
        rw [ofNat_def, ofNat_def, sqrt_fin (by norm_num), div_fin _ (by norm_num)]; norm_num
      rw [h]
      funext k
      fin_cases k
      · rfl
      · show (0 : Fl F) = fin _; rw [ofNat_def]; norm_num
      · show -(fin _ : Fl F) = fin _; rw [Fl.neg_fin]; norm_num
  have hu : (![1 / Real.sqrt 2, 0, -(1 / Real.sqrt 2)] : Fin 3 → ℝ) ⬝ᵥ ![1 / Real.sqrt 2, 0, -(1 / Real.sqrt 2)] = 1 := by
    simp [dotProduct, Fin.sum_univ_three]; rw [← mul_inv, Real.mul_self_sqrt (by norm_num)]; norm_num
  rw [hm, Disk.make_eq _ _ _ hu]

/-- C154: disk.cpp shows the whole disk. -/
theorem C154_disk [F.Exact] (rec0 temp0 : HitRecord (Fl F)) (sc : Render.Scene (Fl F) Pcg) (hsc : DiskProgram.scene rec0 temp0 = some sc)
    (c n : Fin 3 → ℝ) (r : ℝ) (hd : (DiskProgram.disk : Option (Disk (Fl F))) = some (Disk.ofReal r c n))
    (q : Fin 3 → ℝ) (hq : q ∈ diskSet r c n) : InPicture sc.camera q := by
  rw [DiskProgram.disk_fin] at hd
  have hd := Option.some.inj hd
  unfold Disk.ofReal at hd
  obtain ⟨e1, e2, e3, -, -⟩ := Disk.mk.inj hd
  rw [cv_inj] at e2
  rw [fin_inj] at e1
  subst e1 e2
  have hcam : sc.camera = Camera.make (cv ![0, -4, 2]) (cv 0) (cv ![0, 0, 1]) (fin 40) (fin 1 : Fl F) := by
    obtain ⟨l, -, rfl⟩ := Option.map_eq_some_iff.mp hsc
    show Camera.make ![0, -4, 2] ![0, 0, 0] ![0, 0, 1] 40 1 = _
    congr 1
    · simp only [fl, cv_vec3]; norm_num
    · exact cv_zero_vec
    · simp only [fl, cv_vec3]; norm_num
    · simp only [fl]; norm_num
    · simp only [fl]; norm_num
  rw [hcam]
  refine (C154_ball (F := F) ![0, -4, 2] 0 ![0, 0, 1] 40 1 (by norm_num) (by norm_num) le_rfl
    (fun h => by have := congrFun h 1; norm_num at this)
    (fun h => by have := congrFun h 0; simp [cross_apply] at this) 1 (by norm_num)).mpr ?_ q ?_
  · have e : (![0, -4, 2] - 0 : Fin 3 → ℝ) ⬝ᵥ (![0, -4, 2] - 0) = 20 := by
      simp [dotProduct, Fin.sum_univ_three]; norm_num
    rw [e]
    have : 4 ≤ Real.sqrt 20 := Real.le_sqrt_of_sq_le (by norm_num)
    nlinarith [sin20]
  · have := hq.2
    simpa using this

/-- C154: with_lights.cpp shows the whole metal ball. -/
theorem C154_lights [F.Exact] (rec0 temp0 : HitRecord (Fl F)) : ∃ (c : Fin 3 → ℝ) (r : ℝ),
    (WithLights.objects : HittableList (Fl F) (Material (Fl F) Pcg)).objects[1]? = some (Sphere.ofReal c r).toHittable ∧
    ∀ q ∈ sphereSet c r, InPicture (WithLights.scene rec0 temp0).camera q := by
  have hs : (⟨![0, 2, 0], 2⟩ : Sphere (Fl F)) = Sphere.ofReal ![0, 2, 0] 2 := by
    unfold Sphere.ofReal
    congr 1
    · simp only [fl, cv_vec3]; norm_num
    · rw [ofNat_def]; norm_num
  refine ⟨![0, 2, 0], 2, by rw [← hs]; rfl, fun q hq => ?_⟩
  have hcam : (WithLights.scene rec0 temp0).camera = Camera.make (cv ![26, 3, 6]) (cv ![0, 2, 0]) (cv ![0, 1, 0]) (fin 20) (fin (8 / 5) : Fl F) := by
    show Camera.make ![26, 3, 6] ![0, 2, 0] ![0, 1, 0] 20 (lit (16 / 10)) = _
    congr 1
    · simp only [fl, cv_vec3]; norm_num
    · simp only [fl, cv_vec3]; norm_num
    · simp only [fl, cv_vec3]; norm_num
    · simp only [fl]; norm_num
    · rw [lit_def]; norm_num
  rw [hcam]
  have hpi := Real.pi_gt_d2
  have hpi2 := Real.pi_lt_d2
  refine (C154_ball (F := F) ![26, 3, 6] ![0, 2, 0] ![0, 1, 0] 20 (8 / 5) (by norm_num) (by norm_num) (by norm_num)
    (fun h => by have := congrFun h 0; norm_num at this)
    (fun h => by have := congrFun h 0; simp [cross_apply] at this) 2 (by norm_num)).mpr ?_ q ?_
  · have e : (![26, 3, 6] - ![0, 2, 0] : Fin 3 → ℝ) ⬝ᵥ (![26, 3, 6] - ![0, 2, 0]) = 713 := by
      simp [dotProduct, Fin.sum_univ_three]; norm_num
    rw [e]
    have h26 : 26 ≤ Real.sqrt 713 := Real.le_sqrt_of_sq_le (by norm_num)
    obtain ⟨x, hx⟩ : ∃ x, x = 20 * Real.pi / 360 := ⟨_, rfl⟩
    rw [← hx]
    have a1 : 17 / 100 < x := by rw [hx]; linarith
    have a2 : x < 18 / 100 := by rw [hx]; linarith
    have h3 := Real.sin_gt_sub_cube (by linarith : 0 < x)
    have h4 : x ^ 3 ≤ (18 / 100) ^ 3 := pow_le_pow_left₀ (by linarith) a2.le 3
    have h5 : 16 / 100 ≤ Real.sin x := by linarith
    nlinarith
  · simp only [sphereSet, Set.mem_ofPred_eq] at hq
    simp only [dotProduct, Fin.sum_univ_three, Pi.sub_apply]
    linarith

/-- The outermost point of the torus and a point of the rim of the disk are in the picture. A ball of radius 3 around the look-at point is
not, seen from the distance 7 with a field of view of 40 degrees: 7 sin 20° is less than 2.5. -/
example (rec : HitRecord (Fl exact64)) : InPicture (TorusProgram.scene rec rec).camera (torusAt 0 3 1 0 0) ∧
    ¬ ∀ q : Fin 3 → ℝ, (q - 0) ⬝ᵥ (q - 0) ≤ 3 ^ 2 →
      InPicture (Camera.make (cv ![0, 0, 7]) (cv 0) (cv ![0, 1, 0]) (fin 40) (fin 1 : Fl exact64)) q := by
  refine ⟨C154_torus rec rec 0 3 1 ?_ _ ⟨0, 0, rfl⟩, ?_⟩
  · unfold TorusProgram.torus Torus.ofReal
    congr 1
    · exact cv_zero_vec
    · rw [ofNat_def]; norm_num
  · rw [C154_ball (F := exact64) ![0, 0, 7] 0 ![0, 1, 0] 40 1 (by norm_num) (by norm_num) le_rfl
      (fun h => by have := congrFun h 2; simp at this)
      (fun h => by have := congrFun h 0; simp [cross_apply] at this) 3 (by norm_num)]
    have e : (![0, 0, 7] - 0 : Fin 3 → ℝ) ⬝ᵥ (![0, 0, 7] - 0) = 7 ^ 2 := by
      simp [dotProduct, Fin.sum_univ_three]; norm_num
    rw [e, Real.sqrt_sq (by norm_num)]
    have h1 := Real.pi_pos
    have h2 := Real.pi_lt_d2
    have h3 : Real.sin (40 * Real.pi / 360) < 40 * Real.pi / 360 := Real.sin_lt (by positivity)
    linarith

/-- The disk of disk.cpp is what `C154_disk` supposes. -/
example (rec : HitRecord (Fl exact64)) : ∃ sc r c n, DiskProgram.scene rec rec = some sc ∧ (DiskProgram.disk : Option (Disk (Fl exact64))) = some (Disk.ofReal r c n) ∧
    InPicture sc.camera c := by
  obtain ⟨sc, hsc, -⟩ := C120_disk rec rec _ (List.reverse_perm _)
  have hd := DiskProgram.disk_fin (F := exact64)
  exact ⟨sc, _, _, _, hsc, hd, C154_disk rec rec sc hsc _ _ _ hd _ (by simp [diskSet])⟩

end DRT
