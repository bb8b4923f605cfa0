import Verif.Model.Programs
import Verif.Props.Chance
import Verif.Props.Views

/-! # C152: the picture of ellipsoid.cpp -/

namespace DRT
open Scalar Fl Matrix MeasureTheory

variable {F : Fmt}

/-- The solid ellipsoid. -/
def ellipsoidBody (c s : Fin 3 → ℝ) : Set (Fin 3 → ℝ) :=
  {p | ((p 0 - c 0) / s 0) ^ 2 + ((p 1 - c 1) / s 1) ^ 2 + ((p 2 - c 2) / s 2) ^ 2 ≤ 1}

theorem EllipsoidProgram.boundary_fin [F.Exact] :
    (boundary : Ellipsoid (Fl F)) = Ellipsoid.ofReal ![260, 250, 45] ![210, 385 / 2, 140] := by
  unfold boundary Ellipsoid.ofReal
  congr 1
  · funext k
    fin_cases k
    · show (260 : Fl F) = fin _; rw [ofNat_def]; norm_num
    · show (250 : Fl F) = fin _; rw [ofNat_def]; norm_num
    · show (45 : Fl F) = fin _; rw [ofNat_def]; norm_num
  · funext k
    fin_cases k
    · show (lit _ : Fl F) * 60 = fin _; rw [ofNat_def, lit_def, Fl.mul_fin]; norm_num
    · show (lit _ : Fl F) * 55 = fin _; rw [ofNat_def, lit_def, Fl.mul_fin]; norm_num
    · show (lit _ : Fl F) * 40 = fin _; rw [ofNat_def, lit_def, Fl.mul_fin]; norm_num

/-- An ellipsoid lies between its tangent planes across `n`. -/
theorem ellipsoidBody_width {c s p : Fin 3 → ℝ} (hs : ∀ i, s i ≠ 0) (hp : p ∈ ellipsoidBody c s) (n : Fin 3 → ℝ) {r : ℝ} (hr : 0 ≤ r)
    (h : (s 0 * n 0) ^ 2 + (s 1 * n 1) ^ 2 + (s 2 * n 2) ^ 2 ≤ r ^ 2) :
    |(p 0 - c 0) * n 0 + (p 1 - c 1) * n 1 + (p 2 - c 2) * n 2| ≤ r := by
  apply abs_le_of_sq_le_sq _ hr
  have hp : ((p 0 - c 0) / s 0) ^ 2 + ((p 1 - c 1) / s 1) ^ 2 + ((p 2 - c 2) / s 2) ^ 2 ≤ 1 := hp
  obtain ⟨x, hx⟩ : ∃ x, x = (p 0 - c 0) / s 0 := ⟨_, rfl⟩
  obtain ⟨y, hy⟩ : ∃ y, y = (p 1 - c 1) / s 1 := ⟨_, rfl⟩
  obtain ⟨z, hz⟩ : ∃ z, z = (p 2 - c 2) / s 2 := ⟨_, rfl⟩
  rw [← hx, ← hy, ← hz] at hp
  rw [eq_div_iff (hs _)] at hx hy hz
  rw [← hx, ← hy, ← hz]
  obtain ⟨a, ha⟩ : ∃ a, a = s 0 * n 0 := ⟨_, rfl⟩
  obtain ⟨b, hb⟩ : ∃ b, b = s 1 * n 1 := ⟨_, rfl⟩
  obtain ⟨d, hd⟩ : ∃ d, d = s 2 * n 2 := ⟨_, rfl⟩
  rw [← ha, ← hb, ← hd] at h
  rw [mul_assoc, mul_assoc, mul_assoc, ← ha, ← hb, ← hd]
  calc (x * a + y * b + z * d) ^ 2 ≤ (x ^ 2 + y ^ 2 + z ^ 2) * (a ^ 2 + b ^ 2 + d ^ 2) := by
        nlinarith [sq_nonneg (x * b - y * a), sq_nonneg (y * d - z * b), sq_nonneg (z * a - x * d)]
    _ ≤ 1 * r ^ 2 := mul_le_mul hp h (by positivity) zero_le_one
    _ = r ^ 2 := one_mul _

/-- The bounds of the ellipsoid of the program in the directions of the camera. `314/900` is a little less than the tangent of 20 degrees and
`3163/1000` a little more than the root of 10. -/
theorem foggyGlass_bounds {p : Fin 3 → ℝ} (hp : p ∈ ellipsoidBody ![260, 250, 45] ![210, 385 / 2, 140]) :
    0 < (478 - p 0) + 3 * (600 + p 2) ∧ |3 * (p 0 - 478) + (p 2 + 600)| ≤ 314 / 900 * ((478 - p 0) + 3 * (600 + p 2)) ∧
    3163 / 1000 * |p 1 - 278| ≤ 314 / 900 * ((478 - p 0) + 3 * (600 + p 2)) := by
  have hs : ∀ i, (![210, 385 / 2, 140] : Fin 3 → ℝ) i ≠ 0 := fun i => by fin_cases i <;> norm_num
  have key : ∀ n0 n1 n2 r : ℝ, 0 ≤ r → (210 * n0) ^ 2 + (385 / 2 * n1) ^ 2 + (140 * n2) ^ 2 ≤ r ^ 2 →
      |(p 0 - 260) * n0 + (p 1 - 250) * n1 + (p 2 - 45) * n2| ≤ r := fun n0 n1 n2 r hr h =>
    ellipsoidBody_width hs hp ![n0, n1, n2] hr h
  have b1 := abs_le.mp (key 1 0 (-3) 470 (by norm_num) (by norm_num))
  have b2 := abs_le.mp (key (314 / 900 + 3) 0 (1 - 3 * (314 / 900)) 704 (by norm_num) (by norm_num))
  have b3 := abs_le.mp (key (314 / 900 - 3) 0 (-1 - 3 * (314 / 900)) 627 (by norm_num) (by norm_num))
  have b4 := abs_le.mp (key (314 / 900) (3163 / 1000) (-3 * (314 / 900)) 631 (by norm_num) (by norm_num))
  have b5 := abs_le.mp (key (314 / 900) (-3163 / 1000) (-3 * (314 / 900)) 631 (by norm_num) (by norm_num))
  generalize p 0 = x at *
  generalize p 1 = y at *
  generalize p 2 = z at *
  clear key hs hp
  refine ⟨by linarith only [b1.2], ?_, ?_⟩
  · rw [abs_le]
    exact ⟨by linarith only [b3.2], by linarith only [b2.2]⟩
  · rcases abs_cases (y - 278) with ⟨h, -⟩ | ⟨h, -⟩ <;> rw [h]
    · linarith only [b4.2]
    · linarith only [b5.2]

/-- The camera of the program in real numbers. -/
theorem EllipsoidProgram.camera_fin [F.Exact] (rec0 rec1 rec2 temp0 : HitRecord (Fl F)) : (scene rec0 rec1 rec2 temp0).camera =
    Camera.make (cv ![478, 278, -600]) (cv ![278, 278, 0]) (cv ![0, 1, 0]) (fin 40) (fin 1 : Fl F) := by
  show Camera.make ![478, 278, -600] ![278, 278, 0] ![0, 1, 0] 40 1 = _
  congr 1
  · funext k
    fin_cases k
    · show (478 : Fl F) = fin _; rw [ofNat_def]; norm_num
    · show (278 : Fl F) = fin _; rw [ofNat_def]; norm_num
    · show -(600 : Fl F) = fin _; rw [ofNat_def, Fl.neg_fin]; norm_num
  · funext k
    fin_cases k
    · show (278 : Fl F) = fin _; rw [ofNat_def]; norm_num
    · show (278 : Fl F) = fin _; rw [ofNat_def]; norm_num
    · show (0 : Fl F) = fin _; rw [ofNat_def]; norm_num
  · funext k
    fin_cases k
    · show (0 : Fl F) = fin _; rw [ofNat_def]; norm_num
    · show (1 : Fl F) = fin _; rw [ofNat_def]; norm_num
    · show (0 : Fl F) = fin _; rw [ofNat_def]; norm_num
  · rw [ofNat_def]; norm_num
  · rw [ofNat_def]; norm_num

/-- C152: every point of the glass ellipsoid, and of the fog in it, is inside the picture. -/
theorem C152_visible [F.Exact] (rec0 rec1 rec2 temp0 : HitRecord (Fl F)) (c s : Fin 3 → ℝ)
    (hb : (EllipsoidProgram.boundary : Ellipsoid (Fl F)) = Ellipsoid.ofReal c s) (p : Fin 3 → ℝ) (hp : p ∈ ellipsoidBody c s) :
    ∃ a b z : ℝ, (0 ≤ a ∧ a ≤ 1) ∧ (0 ≤ b ∧ b ≤ 1) ∧ 0 < z ∧
      ((EllipsoidProgram.scene rec0 rec1 rec2 temp0).camera.getRay (fin a) (fin b)).at (fin z) = cv p := by
  rw [EllipsoidProgram.boundary_fin] at hb
  unfold Ellipsoid.ofReal at hb
  obtain ⟨h1, h2⟩ := Ellipsoid.mk.inj hb
  rw [cv_inj] at h1 h2
  subst h1 h2
  rw [EllipsoidProgram.camera_fin]
  have e1 : (![478, 278, -600] : Fin 3 → ℝ) ≠ ![278, 278, 0] := fun h => by have := congrFun h 0; norm_num at this
  have e2 : (![0, 1, 0] : Fin 3 → ℝ) ⨯₃ (![478, 278, -600] - ![278, 278, 0]) ≠ 0 := fun h => by
    have := congrFun h 2; simp [cross_apply] at this; norm_num at this
  obtain ⟨u, v, w, hf, ⟨k, hk, hkw⟩, hvu, huu, h⟩ := C108_visible (F := F) ![478, 278, -600] ![278, 278, 0] ![0, 1, 0] 40 1 (by norm_num)
    (by norm_num) one_pos e1 e2
  rw [h]
  obtain ⟨hu, hv, hw1, huv, hvw, hwu, -⟩ := hf
  have w0 := congrFun hkw 0
  have w1 := congrFun hkw 1
  have w2 := congrFun hkw 2
  simp at w0 w1 w2
  norm_num at w0 w1 w2
  simp only [dotProduct, Fin.sum_univ_three] at hu hv hw1 huv hvw hwu hvu huu ⊢
  simp at hvu huu ⊢
  have w1' : w 1 = 0 := by rcases w1 with h | h <;> linarith
  have w02 : w 2 = -3 * w 0 := by
    have : k * (w 2 + 3 * w 0) = 0 := by linarith
    rcases mul_eq_zero.mp this with h | h <;> linarith
  have w0p : 0 < w 0 := by
    by_contra hn
    nlinarith
  have ww : 10 * w 0 ^ 2 = 1 := by rw [w1', w02] at hw1; linarith
  -- the frame
  have u02 : u 0 = 3 * u 2 := by
    rw [w1', w02] at hwu
    have : w 0 * (u 0 - 3 * u 2) = 0 := by linarith
    rcases mul_eq_zero.mp this with h | h <;> linarith
  have v02 : v 0 = 3 * v 2 := by
    rw [w1', w02] at hvw
    have : w 0 * (v 0 - 3 * v 2) = 0 := by linarith
    rcases mul_eq_zero.mp this with h | h <;> linarith
  have u2 : u 2 ^ 2 = w 0 ^ 2 := by rw [huu, u02] at hu; nlinarith
  have v2 : v 2 = 0 := by
    rw [huu, u02, v02] at huv
    have hne : u 2 ≠ 0 := fun h => by rw [h] at u2; nlinarith
    have : u 2 * v 2 = 0 := by linarith
    exact (mul_eq_zero.mp this).resolve_left hne
  have v1 : v 1 = 1 := by
    rw [v02, v2] at hv
    nlinarith
  have hT : Real.pi / 9 ≤ Real.tan (40 * Real.pi / 180 / 2) := by
    have hp := Real.pi_pos
    have : 40 * Real.pi / 180 / 2 = Real.pi / 9 := by ring
    rw [this]
    exact Real.le_tan (by positivity) (by linarith)
  have hpi := Real.pi_gt_d2
  generalize Real.tan (40 * Real.pi / 180 / 2) = T at hT ⊢
  have hTp : 314 / 900 ≤ T := by linarith
  obtain ⟨d1, b1, b2⟩ := foggyGlass_bounds hp
  have hwlt : 1 ≤ w 0 * (3163 / 1000) := by
    by_contra hn
    nlinarith only [hn, ww, w0p]
  obtain ⟨δ, hδ⟩ : ∃ δ, δ = (478 - p 0) + 3 * (600 + p 2) := ⟨_, rfl⟩
  rw [← hδ] at d1 b1 b2
  have hd : (478 - p 0) * w 0 + (278 - p 1) * w 1 + (-600 - p 2) * w 2 = w 0 * δ := by rw [w1', w02, hδ]; ring
  have hT2 : 314 / 900 * δ ≤ T * δ := mul_le_mul_of_nonneg_right hTp d1.le
  rw [hd]
  refine ⟨mul_pos w0p d1, ?_, ?_⟩
  · have e : (p 0 - 478) * u 0 + (p 1 - 278) * u 1 + (p 2 + 600) * u 2 = u 2 * (3 * (p 0 - 478) + (p 2 + 600)) := by rw [huu, u02]; ring
    rw [e, abs_mul, (sq_eq_sq_iff_abs_eq_abs _ _).mp u2, abs_of_pos w0p, mul_left_comm]
    exact mul_le_mul_of_nonneg_left (b1.trans hT2) w0p.le
  · have e : (p 0 - 478) * v 0 + (p 1 - 278) * v 1 + (p 2 + 600) * v 2 = p 1 - 278 := by rw [v02, v2, v1]; ring
    rw [e, mul_left_comm]
    have h4 : |p 1 - 278| ≤ w 0 * (3163 / 1000) * |p 1 - 278| := le_mul_of_one_le_left (abs_nonneg _) hwlt
    calc |p 1 - 278| ≤ w 0 * (3163 / 1000 * |p 1 - 278|) := by rwa [← mul_assoc]
      _ ≤ w 0 * (T * δ) := mul_le_mul_of_nonneg_left (b2.trans hT2) w0p.le

/-- Where a line meets an ellipsoid in two points, it is on the ellipsoid only there and in the body only between. -/
theorem ellipsoid_chord {c s o d : Fin 3 → ℝ} {e x : ℝ} (hs : ∀ i, s i ≠ 0) (hd : d ≠ 0) (hex : e < x) (he : o + e • d ∈ ellipsoidSet c s)
    (hx : o + x • d ∈ ellipsoidSet c s) :
    (∀ t, o + t • d ∈ ellipsoidSet c s ↔ t = e ∨ t = x) ∧ ∀ t, o + t • d ∈ ellipsoidBody c s ↔ e ≤ t ∧ t ≤ x := by
  obtain ⟨A, hA⟩ : ∃ A, A = (d 0 / s 0) ^ 2 + (d 1 / s 1) ^ 2 + (d 2 / s 2) ^ 2 := ⟨_, rfl⟩
  obtain ⟨B, hB⟩ : ∃ B, B = 2 * ((o 0 - c 0) / s 0 * (d 0 / s 0) + (o 1 - c 1) / s 1 * (d 1 / s 1) + (o 2 - c 2) / s 2 * (d 2 / s 2)) := ⟨_, rfl⟩
  obtain ⟨C, hC⟩ : ∃ C, C = ((o 0 - c 0) / s 0) ^ 2 + ((o 1 - c 1) / s 1) ^ 2 + ((o 2 - c 2) / s 2) ^ 2 := ⟨_, rfl⟩
  have hq : ∀ t, ((o 0 + t * d 0 - c 0) / s 0) ^ 2 + ((o 1 + t * d 1 - c 1) / s 1) ^ 2 + ((o 2 + t * d 2 - c 2) / s 2) ^ 2 = A * t ^ 2 + B * t + C := by
    intro t; rw [hA, hB, hC]; ring
  have hA0 : 0 < A := by
    have h0 : 0 ≤ A := by rw [hA]; positivity
    refine lt_of_le_of_ne h0 fun h => hd ?_
    have h1 : (d 0 / s 0) ^ 2 = 0 := by nlinarith [sq_nonneg (d 0 / s 0), sq_nonneg (d 1 / s 1), sq_nonneg (d 2 / s 2)]
    have h2 : (d 1 / s 1) ^ 2 = 0 := by nlinarith [sq_nonneg (d 0 / s 0), sq_nonneg (d 1 / s 1), sq_nonneg (d 2 / s 2)]
    have h3 : (d 2 / s 2) ^ 2 = 0 := by nlinarith [sq_nonneg (d 0 / s 0), sq_nonneg (d 1 / s 1), sq_nonneg (d 2 / s 2)]
    simp only [ne_eq, OfNat.ofNat_ne_zero, not_false_eq_true, pow_eq_zero_iff, div_eq_zero_iff, hs, or_false] at h1 h2 h3
    funext i
    fin_cases i
    · exact h1
    · exact h2
    · exact h3
  simp only [ellipsoidSet, ellipsoidBody, Set.mem_ofPred_eq, Pi.add_apply, Pi.smul_apply, smul_eq_mul, hq] at he hx ⊢
  have hfac : ∀ t, A * t ^ 2 + B * t + C - 1 = A * ((t - e) * (t - x)) := by
    intro t
    have h1 : (x - e) * (A * (x + e) + B) = 0 := by linear_combination hx - he
    have h2 : B = -(A * (x + e)) := by
      rcases mul_eq_zero.mp h1 with h | h <;> linarith
    have h3 : C = 1 - A * e ^ 2 - B * e := by linarith
    rw [h3, h2]; ring
  constructor
  · intro t
    rw [← sub_eq_zero, hfac, mul_eq_zero, or_iff_right hA0.ne', mul_eq_zero, sub_eq_zero, sub_eq_zero]
  · intro t
    rw [← sub_nonpos, hfac]
    constructor
    · intro h
      have h : (t - e) * (t - x) ≤ 0 := by
        by_contra hn
        have := mul_pos hA0 (not_le.mp hn)
        linarith
      constructor <;> nlinarith
    · rintro ⟨h1, h2⟩
      exact mul_nonpos_of_nonneg_of_nonpos hA0.le (mul_nonpos_of_nonneg_of_nonpos (by linarith) (by linarith))

/-- C152: the fog of the program fills the glass ellipsoid and lets the share `exp (-0.015 L)` of the light pass, where `L` is the length of
the way through the ellipsoid. -/
theorem C152_fog [F.Exact] (rec1 rec2 rec : HitRecord (Fl F)) (fog : RandomHittable (Fl F) (EllipsoidProgram.State (Fl F)))
    (hfog : (EllipsoidProgram.objects rec1 rec2)[2]? = some fog) (c s : Fin 3 → ℝ)
    (hb : (EllipsoidProgram.boundary : Ellipsoid (Fl F)) = Ellipsoid.ofReal c s) (o d : Fin 3 → ℝ)
    (hd : F.tiny < scaled d s ⬝ᵥ scaled d s)
    (hod : scaled (o - c) s ⬝ᵥ scaled d s = 0 ∨ F.tiny < |2 * (scaled (o - c) s ⬝ᵥ scaled d s)|)
    {e x : ℝ} (he : o + e • d ∈ ellipsoidSet c s) (hx : o + x • d ∈ ellipsoidSet c s) (hgap : e + 100 * F.eps ≤ x)
    {tmin tmax : Fl F} (hmin : isNaN tmin = false) (hmax : isNaN tmax = false) (st : EllipsoidProgram.State (Fl F)) :
    (EllipsoidProgram.objects rec1 rec2)[1]? = some (.ofHittable (Ellipsoid.ofReal c s).toHittable) ∧
    volume {ξ : ℝ | (0 ≤ ξ ∧ ξ < 1) ∧
        (fog.hit (st.1, (fun k => if k = 0 then fin ξ else st.2.1 k), st.2.2) ⟨cv o, cv d⟩ tmin tmax rec).1 = false} =
      ENNReal.ofReal (Real.exp (-(15 / 1000 * fogLength (ellipsoidBody c s) o d (tmin, tmax)))) := by
  have hs : ∀ i, s i ≠ 0 := by
    have h := hb
    rw [EllipsoidProgram.boundary_fin] at h
    unfold Ellipsoid.ofReal at h
    have h2 := (Ellipsoid.mk.inj h).2
    rw [cv_inj] at h2
    subst h2
    intro i
    fin_cases i <;> norm_num
  have hd0 : d ≠ 0 := by
    rintro rfl
    have h0 : scaled 0 s ⬝ᵥ scaled 0 s = 0 := by simp [scaled, dotProduct]
    rw [h0] at hd
    linarith [Fmt.Exact.tiny_nonneg (F := F)]
  have heps := Fmt.Exact.eps_pos (F := F)
  obtain ⟨hS, hK⟩ := ellipsoid_chord hs hd0 (by linarith : e < x) he hx
  have hl : (lit (15 / 1000) : Fl F) = fin (15 / 1000) := by rw [lit_def]; norm_num
  have hf : fog = .ofMedium (ConstantMedium.make (Ellipsoid.ofReal c s).toHittable (fin (15 / 1000))) rec1 rec2
      fun s => (s.2.1 0, (s.1, fun k => s.2.1 (k + 1), s.2.2)) := by
    rw [← hb, ← hl]
    exact (Option.some.inj hfog).symm
  subst hf
  refine ⟨by rw [← hb]; rfl, ?_⟩
  exact C147_medium (Ellipsoid.ofReal c s).toHittable (fun tmin => C51_nearest_partial c s hs o d tmin hd hod) hS hK hgap (by norm_num) hmin hmax
    rec1 rec2 rec

theorem straight_crossings (t : ℝ) (h : t = 505 ∨ t = 785) :
    ![260, 250, -600] + t • ![0, 0, 1] ∈ ellipsoidSet ![260, 250, 45] ![210, 385 / 2, 140] := by
  rcases h with rfl | rfl <;> (simp [ellipsoidSet]; norm_num)

theorem straight_length : fogLength (F := exact0) (ellipsoidBody ![260, 250, 45] ![210, 385 / 2, 140]) ![260, 250, -600] ![0, 0, 1]
    (fin 0, pinf) = 280 := by
  have hset : {t : ℝ | 0 ≤ t ∧ InRange ((fin 0, pinf) : Fl exact0 × Fl exact0) t ∧
      ![260, 250, -600] + t • ![0, 0, 1] ∈ ellipsoidBody ![260, 250, 45] ![210, 385 / 2, 140]} = Set.Icc 505 785 := by
    ext t
    have hK := (ellipsoid_chord (c := ![260, 250, 45]) (s := ![210, 385 / 2, 140]) (o := ![260, 250, -600]) (d := ![0, 0, 1]) (e := 505) (x := 785)
      (fun i => by fin_cases i <;> norm_num) (fun h => by have := congrFun h 2; simp at this) (by norm_num) (straight_crossings _ (.inl rfl))
      (straight_crossings _ (.inr rfl))).2 t
    rw [Set.mem_ofPred_eq, hK, Set.mem_Icc]
    refine ⟨fun h => h.2.2, fun h => ⟨by linarith [h.1], ⟨?_, rfl⟩, h⟩⟩
    show Scalar.le (fin 0 : Fl exact0) (fin t) = true
    rw [le_fin, decide_eq_true_eq]
    linarith [h.1]
  unfold fogLength
  rw [hset, Real.volume_Icc, ENNReal.toReal_ofReal (by norm_num)]
  simp [dotProduct, Fin.sum_univ_three]
  norm_num

/-- Straight through the middle the way is 280 long, and about 1.5 percent of the light passes. -/
example (rec1 rec2 rec : HitRecord (Fl exact0)) (st : EllipsoidProgram.State (Fl exact0)) :
    ∃ fog c s, (EllipsoidProgram.objects rec1 rec2)[2]? = some fog ∧ (EllipsoidProgram.boundary : Ellipsoid (Fl exact0)) = Ellipsoid.ofReal c s ∧
    volume {ξ : ℝ | (0 ≤ ξ ∧ ξ < 1) ∧ (fog.hit (st.1, (fun k => if k = 0 then fin ξ else st.2.1 k), st.2.2)
      ⟨cv ![260, 250, -600], cv ![0, 0, 1]⟩ (fin 0) pinf rec).1 = false} = ENNReal.ofReal (Real.exp (-(42 / 10))) := by
  have e1 : exact0.tiny = 0 := rfl
  have e2 : exact0.eps < 1 := Fmt.Exact.eps_lt
  have h := (C152_fog (F := exact0) rec1 rec2 rec _ rfl _ _ EllipsoidProgram.boundary_fin ![260, 250, -600] ![0, 0, 1]
    (by rw [e1]; simp [scaled, dotProduct, Fin.sum_univ_three])
    (Or.inr (by rw [e1, abs_pos]; simp [scaled, dotProduct, Fin.sum_univ_three]; norm_num))
    (straight_crossings 505 (.inl rfl)) (straight_crossings 785 (.inr rfl)) (by linarith) (tmin := fin 0) (tmax := pinf) rfl rfl st).2
  refine ⟨_, _, _, rfl, EllipsoidProgram.boundary_fin, h.trans ?_⟩
  rw [straight_length]
  norm_num

/-- The centre of the ellipsoid is in the picture. -/
example (rec : HitRecord (Fl exact64)) : ∃ a b z : ℝ, (0 ≤ a ∧ a ≤ 1) ∧ (0 ≤ b ∧ b ≤ 1) ∧ 0 < z ∧
    ((EllipsoidProgram.scene rec rec rec rec).camera.getRay (fin a) (fin b)).at (fin z) = cv ![260, 250, 45] :=
  C152_visible rec rec rec rec _ _ EllipsoidProgram.boundary_fin _ (by simp [ellipsoidBody])

end DRT
