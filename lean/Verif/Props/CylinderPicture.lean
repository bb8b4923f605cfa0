import Verif.Props.Cylinder
import Verif.Props.Lambert
import Verif.Props.Views
import Verif.Model.Programs

/-! # C160: the picture of cylinder.cpp -/

namespace DRT
open Scalar Fl Matrix

variable {F : Fmt}

theorem CylinderProgram.camera_fin [F.Exact] (rec0 temp0 : HitRecord (Fl F)) :
    (scene rec0 temp0).camera = Camera.make (cv ![10, 10, 0]) (cv 0) (cv ![0, 1, 0]) (fin 40) (fin (8 / 5)) := by
  show Camera.make _ _ _ _ _ = _
  congr 1
  · simp only [fl, cv_vec3]; norm_num
  · exact cv_zero_vec
  · simp only [fl, cv_vec3]; norm_num
  · simp only [fl]; norm_num
  · rw [lit_def]; norm_num

/-- Which points are in the picture of the program. -/
theorem CylinderProgram.visible_iff [F.Exact] (rec0 temp0 : HitRecord (Fl F)) (q : Fin 3 → ℝ) :
    (∃ s t z : ℝ, (0 ≤ s ∧ s ≤ 1) ∧ (0 ≤ t ∧ t ≤ 1) ∧ 0 < z ∧ ((scene rec0 temp0).camera.getRay (fin s) (fin t)).at (fin z) = cv q) ↔
    0 < 20 - q 0 - q 1 ∧ Real.sqrt 2 * |q 2| ≤ 8 / 5 * Real.tan (Real.pi / 9) * (20 - q 0 - q 1) ∧
      |q 1 - q 0| ≤ Real.tan (Real.pi / 9) * (20 - q 0 - q 1) := by
  rw [camera_fin]
  have e1 : (![10, 10, 0] : Fin 3 → ℝ) ≠ 0 := fun h => by have := congrFun h 1; norm_num at this
  have e2 : (![0, 1, 0] : Fin 3 → ℝ) ⨯₃ (![10, 10, 0] - 0) ≠ 0 := fun h => by
    have := congrFun h 2; simp [cross_apply] at this
  obtain ⟨u, v, w, hf, ⟨k, hk, hkw⟩, hvu, huu, h⟩ := C108_visible (F := F) ![10, 10, 0] 0 ![0, 1, 0] 40 (8 / 5) (by norm_num) (by norm_num)
    (by norm_num) e1 e2
  rw [h, show 40 * Real.pi / 180 / 2 = Real.pi / 9 by ring]
  obtain ⟨hu, hv, hw1, huv, hvw, hwu, -⟩ := hf
  have w0 := congrFun hkw 0
  have w1 := congrFun hkw 1
  have w2 := congrFun hkw 2
  simp [hk.ne'] at w0 w1 w2
  simp only [dotProduct, Fin.sum_univ_three] at hu hv hw1 huv hvw hwu hvu huu ⊢
  simp at hvu huu ⊢
  have w01 : w 1 = w 0 := mul_left_cancel₀ hk.ne' (w1.symm.trans w0)
  have wp : 0 < w 0 := by
    by_contra hc
    have := mul_nonpos_of_nonneg_of_nonpos hk.le (not_lt.1 hc)
    linarith
  rw [w2, w01] at hw1 hvw hwu
  have hh : 2 * w 0 ^ 2 = 1 := by linarith
  have hs : Real.sqrt 2 * w 0 = 1 := by
    have a : (Real.sqrt 2 * w 0) ^ 2 = 1 ^ 2 := by rw [mul_pow, Real.sq_sqrt (by norm_num)]; linarith
    exact (pow_left_inj₀ (by positivity) zero_le_one two_ne_zero).1 a
  have u0 : u 0 = 0 := by
    rw [huu] at hwu
    exact (mul_eq_zero.mp (by linarith : w 0 * u 0 = 0)).resolve_left wp.ne'
  have u2 : u 2 ^ 2 = 1 ^ 2 := by rw [huu, u0] at hu; linarith
  have a2 : |u 2| = 1 := by have := (sq_eq_sq_iff_abs_eq_abs _ _).mp u2; simpa using this
  have v2 : v 2 = 0 := by
    rw [huu, u0] at huv
    have hne : u 2 ≠ 0 := fun h => by rw [h] at u2; norm_num at u2
    exact (mul_eq_zero.mp (by linarith : u 2 * v 2 = 0)).resolve_left hne
  have v0 : v 0 = -v 1 := by
    have : w 0 * (v 0 + v 1) = 0 := by rw [v2] at hvw; linarith
    linarith [(mul_eq_zero.mp this).resolve_left wp.ne']
  have v1 : v 1 = w 0 := by
    rw [v0, v2] at hv
    have a : v 1 ^ 2 = w 0 ^ 2 := by linarith
    exact (pow_left_inj₀ hvu.le wp.le two_ne_zero).1 a
  rw [u0, huu, v0, v1, v2, w2, w01]
  have eD : (10 - q 0) * w 0 + (10 - q 1) * w 0 + -(q 2 * 0) = w 0 * (20 - q 0 - q 1) := by ring
  have eU : (q 0 - 10) * 0 + (q 1 - 10) * 0 + q 2 * u 2 = q 2 * u 2 := by ring
  have eV : (q 0 - 10) * -w 0 + (q 1 - 10) * w 0 + q 2 * 0 = w 0 * (q 1 - q 0) := by ring
  simp only [mul_zero, neg_zero, zero_add, add_zero] at eD eU eV ⊢
  rw [eD, eV, abs_mul, a2, abs_mul, abs_of_pos wp, mul_one]
  have s2 : 0 < Real.sqrt 2 := by positivity
  refine and_congr ⟨fun h => by linarith [(mul_pos_iff_of_pos_left wp).1 h], fun h => mul_pos wp (by linarith)⟩ (and_congr ⟨fun h => ?_, fun h => ?_⟩ ⟨fun h => ?_, fun h => ?_⟩)
  · have := mul_le_mul_of_nonneg_left h s2.le
    calc _ ≤ _ := this
      _ = (Real.sqrt 2 * w 0) * (8 / 5 * Real.tan (Real.pi / 9) * (20 - q 0 - q 1)) := by ring
      _ = _ := by rw [hs, one_mul]
  · have := mul_le_mul_of_nonneg_left h wp.le
    calc |q 2| = (Real.sqrt 2 * w 0) * |q 2| := by rw [hs, one_mul]
      _ = w 0 * (Real.sqrt 2 * |q 2|) := by ring
      _ ≤ _ := this
      _ = _ := by ring
  · refine le_of_mul_le_mul_left ?_ wp
    linarith
  · have := mul_le_mul_of_nonneg_left h wp.le
    linarith

theorem tan_pi_div_nine_lt : Real.tan (Real.pi / 9) < 36455 / 100000 := by
  have hp0 := Real.pi_pos
  have hpi := Real.pi_lt_d2
  obtain ⟨c, hc⟩ : ∃ c, c = Real.cos (Real.pi / 9) := ⟨_, rfl⟩
  have h3 : 4 * c ^ 3 - 3 * c = 1 / 2 := by
    rw [hc, ← Real.cos_three_mul, show 3 * (Real.pi / 9) = Real.pi / 3 by ring, Real.cos_pi_div_three]
  have hc1 : 1 - (Real.pi / 9) ^ 2 / 2 ≤ c := hc ▸ Real.one_sub_sq_div_two_le_cos
  have hc2 : 93 / 100 < c := by nlinarith
  have hc3 : 9396 / 10000 < c := by
    by_contra h
    rw [not_lt] at h
    nlinarith [mul_nonneg (sub_nonneg.2 h) (sub_nonneg.2 hc2.le), mul_nonneg (mul_nonneg (sub_nonneg.2 h) (sub_nonneg.2 hc2.le)) (sub_nonneg.2 hc2.le)]
  have hs := Real.sin_sq_add_cos_sq (Real.pi / 9)
  have hs0 : 0 < Real.sin (Real.pi / 9) := Real.sin_pos_of_pos_of_lt_pi (by positivity) (by linarith)
  rw [← hc] at hs
  rw [Real.tan_eq_sin_div_cos, ← hc, div_lt_iff₀ (by linarith)]
  nlinarith

theorem wall_bounds {q : Fin 3 → ℝ} (h : q 0 ^ 2 + q 1 ^ 2 = 3 ^ 2) : |q 0 + q 1| ≤ 4243 / 1000 ∧ |q 1 - q 0| ≤ 4243 / 1000 := by
  constructor <;> rw [abs_le] <;> constructor <;> nlinarith [sq_nonneg (q 0 - q 1), sq_nonneg (q 0 + q 1)]

theorem sqrt_two_bounds : 14142 / 10000 < Real.sqrt 2 ∧ Real.sqrt 2 < 1415 / 1000 :=
  ⟨Real.lt_sqrt_of_sq_lt (by norm_num), (Real.sqrt_lt' (by norm_num)).2 (by norm_num)⟩

/-- C160, the part that holds: the wall of the cylinder between the heights -6 and 6 is in the picture, all around. -/
theorem C160_middle_partial [F.Exact] (rec0 temp0 : HitRecord (Fl F)) (q : Fin 3 → ℝ) (hq : q ∈ cylinderSet 3 (-10) 10) (hz : |q 2| ≤ 6) :
    ∃ s t z : ℝ, (0 ≤ s ∧ s ≤ 1) ∧ (0 ≤ t ∧ t ≤ 1) ∧ 0 < z ∧
      ((CylinderProgram.scene rec0 temp0).camera.getRay (fin s) (fin t)).at (fin z) = cv q := by
  rw [CylinderProgram.visible_iff]
  obtain ⟨h1, h2⟩ := wall_bounds hq.1
  have hpi := Real.pi_gt_d2
  have hpi' := Real.pi_lt_d2
  have hT : Real.pi / 9 ≤ Real.tan (Real.pi / 9) := Real.le_tan (by positivity) (by linarith)
  have hT' : 348 / 1000 ≤ Real.tan (Real.pi / 9) := by linarith
  have hd : 15757 / 1000 ≤ 20 - q 0 - q 1 := by linarith [(abs_le.mp h1).2]
  have hm : 348 / 1000 * (15757 / 1000) ≤ Real.tan (Real.pi / 9) * (20 - q 0 - q 1) := mul_le_mul hT' hd (by norm_num) (by linarith)
  refine ⟨by linarith, ?_, by linarith⟩
  have := mul_le_mul sqrt_two_bounds.2.le hz (abs_nonneg _) (by norm_num)
  linarith

/-- C160 is false: no point of the two rims of the cylinder is in the picture. -/
theorem C160_rims_false [F.Exact] (rec0 temp0 : HitRecord (Fl F)) (q : Fin 3 → ℝ) (hq : q ∈ cylinderSet 3 (-10) 10) (hz : q 2 = 10 ∨ q 2 = -10) :
    ¬ ∃ s t z : ℝ, (0 ≤ s ∧ s ≤ 1) ∧ (0 ≤ t ∧ t ≤ 1) ∧ 0 < z ∧
      ((CylinderProgram.scene rec0 temp0).camera.getRay (fin s) (fin t)).at (fin z) = cv q := by
  rw [CylinderProgram.visible_iff]
  rintro ⟨h0, h, -⟩
  have h1 := (abs_le.mp (wall_bounds hq.1).1).1
  have ha : |q 2| = 10 := by rcases hz with h | h <;> rw [h] <;> norm_num
  rw [ha] at h
  have hs := sqrt_two_bounds.1
  have := mul_le_mul tan_pi_div_nine_lt.le (show 20 - q 0 - q 1 ≤ 24243 / 1000 by linarith) h0.le (by norm_num)
  linarith

/-- C160: the lamp is not in the picture. -/
theorem C160_lamp [F.Exact] (rec0 temp0 : HitRecord (Fl F)) (q : Fin 3 → ℝ) (hq : q ∈ rectSet 1 2 0 (-10) 10 (-10) 10 20) :
    ¬ ∃ s t z : ℝ, (0 ≤ s ∧ s ≤ 1) ∧ (0 ≤ t ∧ t ≤ 1) ∧ 0 < z ∧
      ((CylinderProgram.scene rec0 temp0).camera.getRay (fin s) (fin t)).at (fin z) = cv q := by
  rw [CylinderProgram.visible_iff]
  rintro ⟨h0, -, h⟩
  have hx : q 0 = 20 := hq.1
  rw [hx] at h0 h
  have h1 := tan_pi_div_nine_lt
  have h2 := neg_abs_le (q 1 - 20)
  nlinarith

/-! ## The dark side -/

/-- A reported hit comes with the normal of the reported point. -/
theorem Cylinder.hit_complete {R : Type} [Scalar R] (s : Cylinder R) (r : Ray R) (tmin tmax : R) (rec : HitRecord R)
    (h : (s.hit r tmin tmax rec).1 = true) : ∃ rc, (s.hit r tmin tmax rec).2 = s.complete r rc ∧ (s.hit r tmin tmax rec).2.p = rc.p := by
  have key : ∀ rc, (s.finish r rc).2 = s.complete r rc ∧ (s.finish r rc).2.p = rc.p := fun rc =>
    ⟨Cylinder.finish_snd s r rc, (Cylinder.finish_tp s r rc).2⟩
  revert h
  unfold Cylinder.hit
  dsimp only
  split
  · split_ifs <;> intro h <;> first | exact ⟨_, key _⟩ | simp at h
  · intro h; simp at h

/-- The normal points outwards when the ray comes from outside. -/
theorem Cylinder.complete_normal [F.Exact] (z0 z1 : ℝ) (o d q : Fin 3 → ℝ) (hq : q 0 ^ 2 + q 1 ^ 2 = 3 ^ 2) (hd : d 0 * q 0 + d 1 * q 1 < 0)
    (rc : HitRecord (Fl F)) (hp : rc.p = cv q) :
    ((Cylinder.ofReal 3 z0 z1).complete ⟨cv o, cv d⟩ rc).normal = cv ![q 0 / 3, q 1 / 3, 0] := by
  have hg : (![2 * rc.p 0, 2 * rc.p 1, 0] : Vec (Fl F) 3) = cv ![2 * q 0, 2 * q 1, 0] := by
    rw [hp]
    simp only [fl, cv_vec3, Nat.cast_ofNat, cv_apply]
    norm_num
  have hn : Vec.norm (cv ![2 * q 0, 2 * q 1, 0] : Vec (Fl F) 3) = fin 6 := by
    rw [cv_norm]
    congr 1
    rw [show (![2 * q 0, 2 * q 1, 0] : Fin 3 → ℝ) ⬝ᵥ ![2 * q 0, 2 * q 1, 0] = 6 ^ 2 by
      simp [dotProduct, Fin.sum_univ_three]; linarith]
    exact Real.sqrt_sq (by norm_num)
  have hm : (cv ![2 * q 0, 2 * q 1, 0] : Vec (Fl F) 3) /. fin 6 = cv ![q 0 / 3, q 1 / 3, 0] := by
    rw [cv_sdiv (by norm_num)]
    congr 1
    funext i
    fin_cases i <;> simp <;> ring
  show (HitRecord.setFaceNormal { rc with gradMag := Vec.norm ![2 * rc.p 0, 2 * rc.p 1, 0] } ⟨cv o, cv d⟩
    ((![2 * rc.p 0, 2 * rc.p 1, 0] : Vec (Fl F) 3) /. Vec.norm ![2 * rc.p 0, 2 * rc.p 1, 0])).normal = _
  rw [hg, hn, hm]
  unfold HitRecord.setFaceNormal
  dsimp only
  rw [cv_dot, rzero, lt_fin, if_pos]
  simp [dotProduct, Fin.sum_univ_three]
  linarith

theorem CylinderProgram.objects_fin [F.Exact] : (objects : HittableList (Fl F) (Material (Fl F) Pcg)) =
    ⟨[Rect.yz (Rect.ofReal (-10) 10 (-10) 10 20), (Cylinder.ofReal 3 (-10) 10).toHittable],
      [Material.diffuseLight (solidColor (cv ![3, 3, 3])), Material.lambertian (solidColor (cv ![0, 0, 1])) id (fun g _ => g)]⟩ := by
  have e1 : (⟨-10, 10, -10, 10, 20⟩ : Rect (Fl F)) = Rect.ofReal (-10) 10 (-10) 10 20 := by
    unfold Rect.ofReal
    congr 1 <;> simp only [fl] <;> norm_num
  have e2 : (⟨3, -10, 10⟩ : Cylinder (Fl F)) = Cylinder.ofReal 3 (-10) 10 := by
    unfold Cylinder.ofReal
    congr 1 <;> simp only [fl] <;> norm_num
  have e3 : (![3, 3, 3] : Vec (Fl F) 3) = cv ![3, 3, 3] := by simp only [fl, cv_vec3]; norm_num
  have e4 : (![0, 0, 1] : Vec (Fl F) 3) = cv ![0, 0, 1] := by simp only [fl, cv_vec3]; norm_num
  unfold objects
  rw [e1, e2, e3, e4]
  rfl

/-- The lamp is missed by rays that stay on this side of its plane. -/
theorem CylinderProgram.lamp_missed [F.Exact] (o d : Fin 3 → ℝ) (h0 : o 0 < 20) (hd : d ≠ 0) (tmin tmax : Fl F) (hn : isNaN tmin = false)
    (hm : isNaN tmax = false) (rec : HitRecord (Fl F))
    (hmiss : ∀ z, Scalar.le tmin (fin z : Fl F) = true → o + z • d ∉ rectSet 1 2 0 (-10) 10 (-10) 10 20) :
    ((Rect.ofReal (-10) 10 (-10) 10 20 : Rect (Fl F)).hitYZ ⟨cv o, cv d⟩ tmin tmax rec).1 = false := by
  by_cases hx : d 0 = 0
  · rw [(C59_parallel (-10) 10 (-10) 10 20 o d hd tmin tmax rec).2.2 hx h0.ne]
  · by_contra hc
    rw [Bool.not_eq_false] at hc
    obtain ⟨z, hz, hz1⟩ := (((C59_exact_partial (-10) 10 (-10) 10 20 o d tmin hn).2.2 hx) tmax rec hm).1.1 hc
    exact hmiss z hz.1 hz1

/-- A list of two objects of which only the second is hit, with its record. -/
theorem two_second_record {M : Type} (a b : Hittable (Fl F)) (m n : M) (r : Ray (Fl F)) (tmin : Fl F) (rec temp0 t x : HitRecord (Fl F))
    (ha : a.hit r tmin pinf temp0 = (false, t)) (hb : b.hit r tmin pinf t = (true, x)) (hx : Scalar.lt x.t pinf = true) :
    HittableList.hit ⟨[a, b], [m, n]⟩ r tmin pinf rec temp0 = (some (some n), x) := by
  unfold HittableList.hit
  simp only [HittableList.loop]
  have h1 : HittableList.step r tmin ⟨temp0, pinf, rec, none⟩ 0 a = ⟨t, pinf, rec, none⟩ := by
    unfold HittableList.step
    simp only [ha, Bool.false_eq_true, if_false]
  have h2 : HittableList.step r tmin ⟨t, pinf, rec, none⟩ (0 + 1) b = ⟨x, x.t, x, some 1⟩ := by
    unfold HittableList.step
    simp only [hb, hx, if_true]
  rw [h1, h2]
  rfl

/-- No direction that the material yields at a point with `x ≤ 9/10` leads to the lamp. -/
theorem lamp_out_of_reach {q w : Fin 3 → ℝ} {z : ℝ} (hq1 : q 0 ^ 2 + q 1 ^ 2 = 3 ^ 2) (hx : q 0 ≤ 9 / 10) (hz0 : 0 < z)
    (h6 : 1 ≤ (w 0 * q 0 + w 1 * q 1) / 3) (h8 : w 0 * w 0 + w 1 * w 1 + w 2 * w 2 ≤ 2 * ((w 0 * q 0 + w 1 * q 1) / 3))
    (m0 : q 0 + z * w 0 = 20) (m1 : -10 ≤ q 1 + z * w 1) (m2 : q 1 + z * w 1 ≤ 10) : False := by
  obtain ⟨m, hm⟩ : ∃ m, m = (w 0 * q 0 + w 1 * q 1) / 3 := ⟨_, rfl⟩
  rw [← hm] at h6 h8
  have hm3 : w 0 * q 0 + w 1 * q 1 = 3 * m := by rw [hm]; ring
  have hA1 : (z * w 0) ^ 2 ≤ 2 * (z * m) ^ 2 := by
    have : w 0 ^ 2 ≤ 2 * m ^ 2 := by nlinarith [mul_self_nonneg (w 1), mul_self_nonneg (w 2)]
    rw [mul_pow, mul_pow]
    nlinarith [mul_le_mul_of_nonneg_left this (sq_nonneg z)]
  have hA2 : 3 * (z * m) = 20 * q 0 + (q 1 + z * w 1) * q 1 - 9 := by linear_combination -z * hm3 + q 0 * m0 - hq1
  have hq3 : |q 1| ≤ 3 := abs_le_of_sq_le_sq (by nlinarith [sq_nonneg (q 0)]) (by norm_num)
  have hY : (q 1 + z * w 1) * q 1 ≤ 10 * 3 :=
    (le_abs_self _).trans ((abs_mul _ _).le.trans (mul_le_mul (abs_le.2 ⟨m1, m2⟩) hq3 (abs_nonneg _) (by norm_num)))
  have hA0 : 0 < z * m := mul_pos hz0 (by linarith)
  have hA3 : z * m ≤ 13 := by linarith
  have h1 : (z * m) ^ 2 ≤ 13 ^ 2 := pow_le_pow_left₀ hA0.le hA3 2
  have h2 : (191 / 10) ^ 2 ≤ (z * w 0) ^ 2 := pow_le_pow_left₀ (by norm_num) (by linarith) 2
  norm_num at h1 h2
  linarith

/-- A ray that leaves the wall outwards does not meet it again. -/
theorem CylinderProgram.wall_left [F.Exact] {q w : Fin 3 → ℝ} (hq1 : q 0 ^ 2 + q 1 ^ 2 = 3 ^ 2) (h6 : 1 ≤ (w 0 * q 0 + w 1 * q 1) / 3)
    (tmax : Fl F) (hm : isNaN tmax = false) (t : HitRecord (Fl F)) :
    ((Cylinder.ofReal 3 (-10) 10 : Cylinder (Fl F)).hit ⟨cv q, cv w⟩ (1000 * eps) tmax t).1 = false := by
  have heps0 := Fmt.Exact.eps_pos (F := F)
  have htiny := Fmt.Exact.tiny_lt (F := F)
  have hn : isNaN (1000 * eps : Fl F) = false := by rw [offset_exact]; rfl
  have hp : 3 ≤ w 0 * q 0 + w 1 * q 1 := by linarith
  have ha : 1 ≤ w 0 ^ 2 + w 1 ^ 2 := by
    have e : (w 0 ^ 2 + w 1 ^ 2) * 3 ^ 2 = (w 0 * q 0 + w 1 * q 1) ^ 2 + (w 0 * q 1 - w 1 * q 0) ^ 2 := by rw [← hq1]; ring
    have := pow_le_pow_left₀ (by norm_num) hp 2
    linarith [sq_nonneg (w 0 * q 1 - w 1 * q 0)]
  have out : ∀ z : ℝ, 0 < z → 3 ^ 2 < (q 0 + z * w 0) ^ 2 + (q 1 + z * w 1) ^ 2 := by
    intro z hz
    have e : (q 0 + z * w 0) ^ 2 + (q 1 + z * w 1) ^ 2 = 3 ^ 2 + 2 * (z * (w 0 * q 0 + w 1 * q 1)) + z ^ 2 * (w 0 ^ 2 + w 1 ^ 2) := by
      rw [← hq1]; ring
    rw [e]
    have h1 : 0 < z * (w 0 * q 0 + w 1 * q 1) := mul_pos hz (by linarith)
    have h2 : 0 ≤ z ^ 2 * (w 0 ^ 2 + w 1 ^ 2) := by positivity
    linarith
  have hnear := C65_outside_partial (F := F) 3 (-10) 10 q w (1000 * eps) hn (by linarith) (by
    right
    rw [abs_of_pos] <;> linarith) (by
    intro t ht
    rw [offset_exact] at ht
    obtain rfl : 1000 * F.eps = t := by simpa using ht
    exact out _ (by positivity))
  by_contra hc
  rw [Bool.not_eq_false] at hc
  obtain ⟨z, hz, hzq⟩ := ((hnear tmax t hm).1).1 hc
  have hz := hz.1
  dsimp only at hz
  rw [offset_exact, le_fin, decide_eq_true_eq] at hz
  exact absurd hzq.1 (out z (by linarith)).ne'

/-- C160 is false: look from the camera at a point of the wall with `x ≤ 9/10`. It is black for every state of the generator and every
depth. -/
theorem C160_dark_false [F.Exact] (heps : 1000 * F.eps ≤ 1 / 10) (rec0 temp0 : HitRecord (Fl F)) (q : Fin 3 → ℝ)
    (hq : q ∈ cylinderSet 3 (-10) 10) (hx : q 0 ≤ 9 / 10) (hfront : 9 < 10 * (q 0 + q 1)) (k : ℝ) (hk : 0 < k) (hk1 : k ≤ 1)
    (hkq : 1 ≤ (k * (q 0 - 10)) ^ 2 + (k * (q 1 - 10)) ^ 2) (g : Pcg) (hg : g.inc = 234121#64) (depth : ℕ) :
    ∃ x, rayColor (CylinderProgram.objects.world temp0) (cv 0) rec0 (depth + 2) g ⟨cv ![10, 10, 0], cv (k • (q - ![10, 10, 0]))⟩ = some x ∧
      x.color = cv 0 := by
  have heps0 := Fmt.Exact.eps_pos (F := F)
  have htiny := Fmt.Exact.tiny_lt (F := F)
  have hn : isNaN (1000 * eps : Fl F) = false := by rw [offset_exact]; rfl
  obtain ⟨hq1, hq2, hq3⟩ := id hq
  obtain ⟨b1, b2⟩ := wall_bounds hq1
  rw [abs_le] at b1 b2
  obtain ⟨d, hd⟩ : ∃ d, d = k • (q - ![10, 10, 0]) := ⟨_, rfl⟩
  have d0 : d 0 = k * (q 0 - 10) := by rw [hd]; rfl
  have d1 : d 1 = k * (q 1 - 10) := by rw [hd]; rfl
  have hat : ![10, 10, 0] + k⁻¹ • d = q := by
    rw [hd, smul_smul, inv_mul_cancel₀ hk.ne', one_smul]; abel
  have hdn : d 0 < 0 := by rw [d0]; exact mul_neg_of_pos_of_neg hk (by linarith)
  have hd0 : d ≠ 0 := fun h => by rw [h] at hdn; simp at hdn
  rw [← hd]
  -- the lamp
  have hlamp : ((Rect.ofReal (-10) 10 (-10) 10 20 : Rect (Fl F)).hitYZ ⟨cv ![10, 10, 0], cv d⟩ (1000 * eps) pinf temp0).1 = false := by
    refine CylinderProgram.lamp_missed _ d (by norm_num) hd0 _ _ hn rfl temp0 fun z hz hm => ?_
    have hz' := hz
    rw [offset_exact, le_fin, decide_eq_true_eq] at hz'
    have h20 : 10 + z * d 0 = 20 := hm.1
    have : z * d 0 < 0 := mul_neg_of_pos_of_neg (by linarith) hdn
    linarith
  -- the wall
  have hnear := C65_outside_partial (F := F) 3 (-10) 10 ![10, 10, 0] d (1000 * eps) hn (by rw [d0, d1]; linarith) (by
    right
    have e : 2 * ((![10, 10, 0] : Fin 3 → ℝ) 0 * d 0 + (![10, 10, 0] : Fin 3 → ℝ) 1 * d 1) = -(20 * k * (20 - q 0 - q 1)) := by
      rw [d0, d1]; simp; ring
    have hk2 : 1 / 20 ≤ k := by
      by_contra hc
      rw [not_le] at hc
      have : k ^ 2 ≤ (1 / 20) ^ 2 := pow_le_pow_left₀ hk.le hc.le 2
      nlinarith
    rw [e, abs_neg, abs_of_pos (mul_pos (by positivity) (by linarith))]
    nlinarith) (by
    intro t ht
    rw [offset_exact] at ht
    obtain rfl : 1000 * F.eps = t := by simpa using ht
    obtain ⟨t, ht⟩ : ∃ t, t = 1000 * F.eps * k := ⟨_, rfl⟩
    have t0 : 0 < t := by rw [ht]; positivity
    have t1 : t ≤ 1 / 10 := by rw [ht]; nlinarith
    rw [d0, d1]
    show (3 : ℝ) ^ 2 < (10 + _) ^ 2 + (10 + _) ^ 2
    rw [← mul_assoc, ← mul_assoc, ← ht]
    have hq0 : -3 ≤ q 0 := (abs_le.1 (abs_le_of_sq_le_sq (by linarith [sq_nonneg (q 1)]) (by norm_num : (0 : ℝ) ≤ 3))).1
    have h3 : 3 < 10 + t * (q 0 - 10) := by nlinarith
    nlinarith [sq_nonneg (10 + t * (q 1 - 10))])
  obtain ⟨t1, ht1⟩ : ∃ t, (Rect.yz (Rect.ofReal (-10) 10 (-10) 10 20 : Rect (Fl F))).hit ⟨cv ![10, 10, 0], cv d⟩ (1000 * eps) pinf temp0 =
      (false, t) := ⟨_, Prod.ext hlamp rfl⟩
  obtain ⟨hhit, hrec⟩ := hnear pinf t1 rfl
  have hin : InRange ((1000 * eps : Fl F), (pinf : Fl F)) k⁻¹ := by
    refine ⟨?_, rfl⟩
    show Scalar.le (1000 * eps : Fl F) _ = true
    rw [offset_exact, le_fin, decide_eq_true_eq]
    exact (heps.trans (by norm_num)).trans ((one_le_inv₀ hk).2 hk1)
  have htrue := hhit.2 ⟨k⁻¹, hin, by rw [hat]; exact hq⟩
  obtain ⟨z, hz1, hz2, -, hz4, hz5⟩ := hrec htrue
  have hzk : z = k⁻¹ := by
    have hle := hz5 k⁻¹ hin (by rw [hat]; exact hq)
    by_contra hne
    have hlt : z < k⁻¹ := lt_of_le_of_ne hle hne
    have hzr : (10 + z * d 0) ^ 2 + (10 + z * d 1) ^ 2 = 3 ^ 2 := hz4.1
    have hw : z * k < 1 := by
      have := mul_lt_mul_of_pos_right hlt hk
      rwa [inv_mul_cancel₀ hk.ne'] at this
    rw [d0, d1, ← mul_assoc, ← mul_assoc] at hzr
    obtain ⟨y, hy⟩ : ∃ y, y = 1 - z * k := ⟨_, rfl⟩
    have hy0 : 0 < y := by linarith
    rw [show z * k = 1 - y by linarith] at hzr
    have : y * (2 * (10 * (q 0 + q 1) - 9) + y * ((q 0 - 10) ^ 2 + (q 1 - 10) ^ 2)) = 0 := by linear_combination hzr + (2 * y - 1) * hq1
    have h2 : 0 < 2 * (10 * (q 0 + q 1) - 9) + y * ((q 0 - 10) ^ 2 + (q 1 - 10) ^ 2) := by
      have : 0 ≤ y * ((q 0 - 10) ^ 2 + (q 1 - 10) ^ 2) := by positivity
      linarith
    have := mul_pos hy0 h2
    linarith
  rw [hzk, hat] at hz2
  obtain ⟨x, hxx⟩ : ∃ x, (Cylinder.ofReal 3 (-10) 10 : Cylinder (Fl F)).hit ⟨cv ![10, 10, 0], cv d⟩ (1000 * eps) pinf t1 = (true, x) :=
    ⟨_, Prod.ext htrue rfl⟩
  obtain ⟨rc, hrc, hrp⟩ := Cylinder.hit_complete _ _ _ _ _ htrue
  rw [hxx] at hz1 hz2 hrc hrp
  dsimp only at hz1 hz2 hrc hrp
  have xn : x.normal = cv ![q 0 / 3, q 1 / 3, 0] := by
    rw [hrc]
    refine Cylinder.complete_normal _ _ _ d q hq1 ?_ rc (hrp.symm.trans hz2)
    rw [d0, d1]
    have : k * (q 0 - 10) * q 0 + k * (q 1 - 10) * q 1 = -(k * (10 * (q 0 + q 1) - 9)) := by linear_combination k * hq1
    rw [this]
    exact neg_neg_of_pos (mul_pos hk (by linarith))
  have hfirst : CylinderProgram.objects.world temp0 g ⟨cv ![10, 10, 0], cv d⟩ (1000 * eps) inf rec0 =
      some (some (Material.lambertian (solidColor (cv ![0, 0, 1])) id (fun g _ => g)), x, g) := by
    rw [CylinderProgram.objects_fin]
    unfold HittableList.world
    rw [show (inf : Fl F) = pinf from rfl, two_second_record _ _ _ _ _ _ _ _ t1 x ht1 hxx (by rw [hz1]; rfl)]
    rfl
  have hunit : (![q 0 / 3, q 1 / 3, 0] : Fin 3 → ℝ) ⬝ᵥ ![q 0 / 3, q 1 / 3, 0] = 1 := by
    simp [dotProduct, Fin.sum_univ_three]; linarith
  -- the reflected ray
  obtain ⟨sc, g', h2, h3, h4, -, w, h5, h6, h7, h8⟩ := C74_scatter (F := F) (solidColor (cv ![0, 0, 1])) g hg ⟨cv ![10, 10, 0], cv d⟩ x _ xn hunit
  have hwn : w ⬝ᵥ ![q 0 / 3, q 1 / 3, 0] = (w 0 * q 0 + w 1 * q 1) / 3 := by simp [dotProduct, Fin.sum_univ_three]; ring
  have h8' : w ⬝ᵥ w ≤ 2 * ((w 0 * q 0 + w 1 * q 1) / 3) := by
    rw [sub_dotProduct, dotProduct_sub, dotProduct_sub, hunit, dotProduct_comm ![q 0 / 3, q 1 / 3, 0] w, hwn] at h8
    linarith
  rw [hwn] at h6
  simp only [dotProduct, Fin.sum_univ_three] at h8'
  have hlamp2 : ((Rect.ofReal (-10) 10 (-10) 10 20 : Rect (Fl F)).hitYZ ⟨cv q, cv w⟩ (1000 * eps) pinf temp0).1 = false := by
    refine CylinderProgram.lamp_missed q w (by linarith) h7 _ _ hn rfl temp0 fun z hz hm => ?_
    rw [offset_exact, le_fin, decide_eq_true_eq] at hz
    have hz0 : 0 < z := by linarith
    obtain ⟨m0, ⟨m1, m2⟩, -⟩ := hm
    exact lamp_out_of_reach hq1 hx hz0 h6 h8' m0 m1 m2
  have hwall2 : ∀ t, ((Cylinder.ofReal 3 (-10) 10 : Cylinder (Fl F)).hit ⟨cv q, cv w⟩ (1000 * eps) pinf t).1 = false :=
    fun t => CylinderProgram.wall_left hq1 h6 _ rfl t
  refine ⟨⟨cv 0, g', 2⟩, ?_, rfl⟩
  rw [rayColor, hfirst]
  simp only [Material.lambertian, id, h2, Option.map_some, h3, if_true, h4, h5]
  have h9 : CylinderProgram.objects.world temp0 g' ⟨x.p, cv w⟩ (1000 * eps) inf rec0 = some (none, rec0, g') := by
    rw [CylinderProgram.objects_fin, hz2]
    unfold HittableList.world
    rw [show (inf : Fl F) = pinf from rfl, two_none _ _ _ _ _ _ _ _ hlamp2 hwall2]
    rfl
  rw [rayColor, h9]
  simp only [Option.some.injEq, Shade.mk.injEq, and_true]
  funext i
  have : Material.emittedDefault x = (cv 0 : Vec (Fl F) 3) := cv_zero_vec
  rw [this]
  simp [cv_apply, solidColor]

/-- C160: yet a straight line from a point of the wall to a point of the lamp on its outer side meets nothing before the lamp: whoever looks along
it sees the lamp. -/
theorem C160_sight [F.Exact] (heps : 1000 * F.eps ≤ 1) (rec0 temp0 : HitRecord (Fl F)) (q P : Fin 3 → ℝ) (hq : q ∈ cylinderSet 3 (-10) 10)
    (hP : P ∈ rectSet 1 2 0 (-10) 10 (-10) 10 20) (hout : 12 ≤ P 0 * q 0 + P 1 * q 1) (g : Pcg) (depth : ℕ) :
    ∃ x, rayColor (CylinderProgram.objects.world temp0) (cv 0) rec0 (depth + 1) g ⟨cv q, cv (P - q)⟩ = some x ∧ x.color = cv ![3, 3, 3] := by
  have hn : isNaN (1000 * eps : Fl F) = false := by rw [offset_exact]; rfl
  have hq3 : |q 0| ≤ 3 := abs_le_of_sq_le_sq (by linarith [sq_nonneg (q 1), hq.1]) (by norm_num)
  have hx : P 0 = 20 := hP.1
  have hd : (P - q) 0 ≠ 0 := by rw [Pi.sub_apply, hx]; linarith [(abs_le.1 hq3).2]
  have h2 := (C59_exact_partial (F := F) (-10) 10 (-10) 10 20 q (P - q) (1000 * eps) hn).2.2 hd pinf temp0 rfl
  have h3 := h2.1.2 ⟨1, ⟨by rw [offset_exact, le_fin]; simpa using heps, rfl⟩, by rw [one_smul, add_sub_cancel]; exact hP⟩
  obtain ⟨z, hz, -⟩ := h2.2 h3
  obtain ⟨x, hxx⟩ : ∃ x, (Rect.ofReal (-10) 10 (-10) 10 20 : Rect (Fl F)).hitYZ ⟨cv q, cv (P - q)⟩ (1000 * eps) pinf temp0 = (true, x) :=
    ⟨_, Prod.ext h3 rfl⟩
  rw [hxx] at hz
  dsimp only at hz
  refine ⟨⟨cv ![3, 3, 3], g, 1⟩, ?_, rfl⟩
  rw [rayColor, CylinderProgram.objects_fin]
  unfold HittableList.world
  rw [show (inf : Fl F) = pinf from rfl, two_first _ _ _ _ _ _ _ _ x hxx (by rw [hz]; rfl)
    (CylinderProgram.wall_left hq.1 (by simp only [Pi.sub_apply]; linarith [hq.1]) _ (by rw [hz]; rfl) x)]
  rfl

/-- The point on the top of the wall, seen from the camera, is black, and the upper half of the lamp is in sight from it. -/
example (rec0 temp0 : HitRecord (Fl exact64)) :
    (∃ x, rayColor (CylinderProgram.objects.world temp0) (cv 0) rec0 8 lambertianSeed
      ⟨cv ![10, 10, 0], cv ((1 / 10 : ℝ) • (![0, 3, 0] - ![10, 10, 0]))⟩ = some x ∧ x.color = cv 0) ∧
    ∃ x, rayColor (CylinderProgram.objects.world temp0) (cv 0) rec0 8 lambertianSeed ⟨cv ![0, 3, 0], cv (![20, 8, 0] - ![0, 3, 0])⟩ = some x ∧
      x.color = cv ![3, 3, 3] := by
  have hq : (![0, 3, 0] : Fin 3 → ℝ) ∈ cylinderSet 3 (-10) 10 := ⟨by norm_num, by simp, by simp⟩
  exact ⟨C160_dark_false (F := exact64) (by simp only [exact64]; norm_num) rec0 temp0 _ hq (by norm_num) (by norm_num) _ (by norm_num) (by norm_num)
      (by norm_num) _ rfl 6,
    C160_sight (F := exact64) (by simp only [exact64]; norm_num) rec0 temp0 _ _ hq ⟨by norm_num, ⟨by norm_num, by norm_num⟩, by simp, by simp⟩
      (by norm_num) _ 7⟩

/-- A point of the wall that is in the picture, and the point above it on the rim that is not. -/
example (rec0 temp0 : HitRecord (Fl exact64)) :
    (∃ s t z : ℝ, (0 ≤ s ∧ s ≤ 1) ∧ (0 ≤ t ∧ t ≤ 1) ∧ 0 < z ∧
      ((CylinderProgram.scene rec0 temp0).camera.getRay (fin s) (fin t)).at (fin z) = cv ![0, 3, 5]) ∧
    ¬ ∃ s t z : ℝ, (0 ≤ s ∧ s ≤ 1) ∧ (0 ≤ t ∧ t ≤ 1) ∧ 0 < z ∧
      ((CylinderProgram.scene rec0 temp0).camera.getRay (fin s) (fin t)).at (fin z) = cv ![0, 3, 10] :=
  ⟨C160_middle_partial rec0 temp0 _ ⟨by norm_num, by simp; norm_num, by simp; norm_num⟩ (by simp; norm_num),
    C160_rims_false rec0 temp0 _ ⟨by norm_num, by simp, by simp⟩ (Or.inl rfl)⟩

/-- The middle of the lamp is not in the picture. -/
example (rec0 temp0 : HitRecord (Fl exact64)) : ¬ ∃ s t z : ℝ, (0 ≤ s ∧ s ≤ 1) ∧ (0 ≤ t ∧ t ≤ 1) ∧ 0 < z ∧
    ((CylinderProgram.scene rec0 temp0).camera.getRay (fin s) (fin t)).at (fin z) = cv ![20, 0, 0] :=
  C160_lamp rec0 temp0 _ ⟨by norm_num, ⟨by norm_num, by norm_num⟩, by simp, by simp⟩

end DRT
