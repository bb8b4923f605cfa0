import Verif.Props.Cylinder
import Verif.Props.Invisible
import Verif.Props.Helicoid
import Verif.Props.Surfaces
import Verif.Props.Views

/-! # C153: the picture of helicoid.cpp -/

namespace DRT
open Scalar Fl Matrix

variable {F : Fmt}

theorem HelicoidProgram.surface_fin [F.Exact] : (surface : Helicoid (Fl F)) = Helicoid.ofReal 1 3 := by
  unfold surface Helicoid.ofReal
  congr 1
  · rw [ofNat_def]; norm_num
  · rw [ofNat_def]; norm_num

theorem HelicoidProgram.camera_fin [F.Exact] :
    (camera : Camera (Fl F)) = Camera.make (cv ![0, -4, 0]) (cv 0) (cv ![0, 1, 1]) (fin 40) (fin 1) := by
  unfold camera
  congr 1
  · simp only [fl, cv_vec3]; norm_num
  · exact cv_zero_vec
  · simp only [fl, cv_vec3]; norm_num
  · simp only [fl]; norm_num
  · simp only [fl]; norm_num

/-- C153: the second object of the scene is a cylinder that encloses the helicoid: no point of the helicoid is outside, its rim is on the
cylinder, and it climbs from the height -3/2 to 3/2. -/
theorem C153_enclosed [F.Exact] (junk : Fl F) (l : List (PartialHittable (Fl F))) (hl : HelicoidProgram.objects junk = some l) :
    (∃ r a b : ℝ, l[1]? = some (PartialHittable.ofHittable (Cylinder.ofReal r a b).toHittable) ∧
      ∀ u v : ℝ, 0 ≤ u → u ≤ 1 → 0 ≤ v → v ≤ 1 → ∃ p : Fin 3 → ℝ, HelicoidProgram.surface.eval (fin u) (fin v) = (cv p : Vec (Fl F) 3) ∧
        p 0 ^ 2 + p 1 ^ 2 ≤ r ^ 2 ∧ a < p 2 ∧ p 2 < b ∧ (v = 1 → p ∈ cylinderSet r a b)) ∧
    ∀ v : ℝ, (HelicoidProgram.surface.eval (fin 0) (fin v) : Vec (Fl F) 3) 2 = fin (-3 / 2) ∧
      (HelicoidProgram.surface.eval (fin 1) (fin v) : Vec (Fl F) 3) 2 = fin (3 / 2) := by
  have hc : (⟨1, -3, 3⟩ : Cylinder (Fl F)) = Cylinder.ofReal 1 (-3) 3 := by
    unfold Cylinder.ofReal
    congr 1
    · rw [ofNat_def]; norm_num
    · rw [ofNat_def, Fl.neg_fin]; norm_num
    · rw [ofNat_def]; norm_num
  constructor
  · refine ⟨1, -3, 3, ?_, fun u v hu0 hu1 hv0 hv1 => ⟨helPt 1 3 u v, ?_, ?_, ?_, ?_, ?_⟩⟩
    · unfold HelicoidProgram.objects at hl
      obtain ⟨_, -, hl⟩ := Option.bind_eq_some_iff.mp hl
      obtain ⟨_, -, hl⟩ := Option.bind_eq_some_iff.mp hl
      obtain ⟨_, -, rfl⟩ := Option.map_eq_some_iff.mp hl
      rw [← hc]
      rfl
    · rw [HelicoidProgram.surface_fin, Helicoid.eval_fin]
    · simp only [helPt, Matrix.cons_val_zero, Matrix.cons_val_one]
      have := Real.cos_sq_add_sin_sq (2 * Real.pi * u)
      have e : (1 * v * Real.cos (2 * Real.pi * u)) ^ 2 + (1 * v * Real.sin (2 * Real.pi * u)) ^ 2 = v ^ 2 := by linear_combination v ^ 2 * this
      rw [e]
      exact pow_le_pow_left₀ hv0 hv1 2
    · show -3 < 3 * (u - 1 / 2); linarith
    · show 3 * (u - 1 / 2) < 3; linarith
    · rintro rfl
      refine ⟨?_, ?_, ?_⟩
      · show (1 * 1 * Real.cos (2 * Real.pi * u)) ^ 2 + (1 * 1 * Real.sin (2 * Real.pi * u)) ^ 2 = 1 ^ 2
        linear_combination Real.cos_sq_add_sin_sq (2 * Real.pi * u)
      · show -3 ≤ 3 * (u - 1 / 2); linarith
      · show 3 * (u - 1 / 2) ≤ 3; linarith
  · intro v
    rw [HelicoidProgram.surface_fin, Helicoid.eval_fin, Helicoid.eval_fin]
    constructor
    · show fin (3 * ((0 : ℝ) - 1 / 2)) = fin _; norm_num
    · show fin (3 * ((1 : ℝ) - 1 / 2)) = fin _; norm_num

/-- C153: the glass of that cylinder does not shine, and a ray goes on through it in its direction and without loss if the random number is
at least `(1 - cos θ)^5`. -/
theorem C153_glass [F.Exact] (st : HelicoidProgram.State (Fl F)) (ξ : ℝ) (hst : st.2 0 = fin ξ) (o d u n : Fin 3 → ℝ) (hu : UnitOf d u)
    (rec : HitRecord (Fl F)) (hr : rec.normal = cv n) (hn : n ⬝ᵥ n = 1) (hface : d ⬝ᵥ n ≤ 0) (hξ : (1 + u ⬝ᵥ n) ^ 5 ≤ ξ) :
    HelicoidProgram.materials[1]?.map (fun m => m.emitted rec) = some (cv ![0, 0, 0]) ∧
    HelicoidProgram.materials[1]?.bind (fun m => m.scatter st ⟨cv o, cv d⟩ rec) =
      some (⟨true, some (cv ![1, 1, 1]), some ⟨rec.p, cv u⟩⟩, (st.1, fun k => st.2 (k + 1))) := by
  have h := C140_straight_partial ξ o d u n hu rec hr hn hface hξ
  have h1 : (1 : Fl F) = fin 1 := by rw [ofNat_def]; norm_num
  constructor
  · show some (((0 : Fl F) •. ![lit (2 / 100), lit (4 / 10), lit (9 / 10)] : Vec (Fl F) 3)) = _
    congr 1
    funext k
    fin_cases k
    · show (0 : Fl F) * lit _ = fin _; rw [ofNat_def, lit_def, Fl.mul_fin]; norm_num
    · show (0 : Fl F) * lit _ = fin _; rw [ofNat_def, lit_def, Fl.mul_fin]; norm_num
    · show (0 : Fl F) * lit _ = fin _; rw [ofNat_def, lit_def, Fl.mul_fin]; norm_num
  · show some (Dielectric.scatter (1 : Fl F) (st.2 0) ⟨cv o, cv d⟩ rec, (st.1, fun k => st.2 (k + 1))) = _
    rw [h1, hst, h]

/-- Which points are in the picture of the program. -/
theorem HelicoidProgram.visible_iff [F.Exact] (q : Fin 3 → ℝ) :
    (∃ s t z : ℝ, (0 ≤ s ∧ s ≤ 1) ∧ (0 ≤ t ∧ t ≤ 1) ∧ 0 < z ∧ ((camera : Camera (Fl F)).getRay (fin s) (fin t)).at (fin z) = cv q) ↔
    0 < q 1 + 4 ∧ |q 0| ≤ Real.tan (Real.pi / 9) * (q 1 + 4) ∧ |q 2| ≤ Real.tan (Real.pi / 9) * (q 1 + 4) := by
  rw [camera_fin]
  have e1 : (![0, -4, 0] : Fin 3 → ℝ) ≠ 0 := fun h => by have := congrFun h 1; norm_num at this
  have e2 : (![0, 1, 1] : Fin 3 → ℝ) ⨯₃ (![0, -4, 0] - 0) ≠ 0 := fun h => by
    have := congrFun h 0; simp [cross_apply] at this
  obtain ⟨u, v, w, hf, ⟨k, hk, hkw⟩, hvu, huu, h⟩ := C108_visible (F := F) ![0, -4, 0] 0 ![0, 1, 1] 40 1 (by norm_num) (by norm_num) one_pos e1 e2
  rw [h, show 40 * Real.pi / 180 / 2 = Real.pi / 9 by ring]
  obtain ⟨hu, hv, hw1, huv, hvw, hwu, -⟩ := hf
  have w0 := congrFun hkw 0
  have w1 := congrFun hkw 1
  have w2 := congrFun hkw 2
  simp [hk.ne'] at w0 w1 w2
  simp only [dotProduct, Fin.sum_univ_three] at hu hv hw1 huv hvw hwu hvu huu ⊢
  simp at hvu huu ⊢
  rw [w0, w2] at hw1 hvw hwu
  have w1' : w 1 = -1 := by
    have h1 : (w 1 - 1) * (w 1 + 1) = 0 := by linarith
    rcases mul_eq_zero.mp h1 with h | h
    · nlinarith
    · linarith
  rw [w1'] at hvw hwu
  have u1 : u 1 = 0 := by linarith
  have v1 : v 1 = 0 := by linarith
  have u2 : u 2 = 0 := by linarith
  have u0 : u 0 ^ 2 = 1 ^ 2 := by rw [u1, u2] at hu; linarith
  have v0 : v 0 = 0 := by
    rw [u1, u2] at huv
    have hne : u 0 ≠ 0 := fun h => by rw [h] at u0; norm_num at u0
    exact (mul_eq_zero.mp (by linarith : u 0 * v 0 = 0)).resolve_left hne
  have v2 : v 2 = 1 := by rw [v0, v1] at hv; nlinarith
  have a1 : |u 0| = 1 := by have := (sq_eq_sq_iff_abs_eq_abs _ _).mp u0; simpa using this
  rw [w0, w1', w2, u1, u2, v0, v1, v2]
  simp only [mul_zero, add_zero, zero_add, mul_one, abs_mul, a1]
  have e : -(q 0 * 0) + (-4 - q 1) * -1 + -(q 2 * 0) = q 1 + 4 := by ring
  simp only [mul_zero, neg_zero, zero_add, add_zero] at e ⊢
  rw [e]

/-- C153, the part that holds: the middle of the helicoid, up to the height 1 on both sides, is in the picture. -/
theorem C153_middle_partial [F.Exact] (u v : ℝ) (hv0 : 0 ≤ v) (hv1 : v ≤ 1) (p : Fin 3 → ℝ)
    (hp : HelicoidProgram.surface.eval (fin u) (fin v) = (cv p : Vec (Fl F) 3)) (hz : |p 2| ≤ 1) :
    ∃ s t z : ℝ, (0 ≤ s ∧ s ≤ 1) ∧ (0 ≤ t ∧ t ≤ 1) ∧ 0 < z ∧
      ((HelicoidProgram.camera : Camera (Fl F)).getRay (fin s) (fin t)).at (fin z) = cv p := by
  rw [HelicoidProgram.visible_iff]
  rw [HelicoidProgram.surface_fin, Helicoid.eval_fin, cv_inj] at hp
  have h0 : p 0 = v * Real.cos (2 * Real.pi * u) := by rw [← hp]; simp [helPt]
  have h1 : p 1 = v * Real.sin (2 * Real.pi * u) := by rw [← hp]; simp [helPt]
  have b0 : |p 0| ≤ 1 := by
    rw [h0, abs_mul, abs_of_nonneg hv0]; exact mul_le_one₀ hv1 (abs_nonneg _) (Real.abs_cos_le_one _)
  have b1 : |p 1| ≤ 1 := by
    rw [h1, abs_mul, abs_of_nonneg hv0]; exact mul_le_one₀ hv1 (abs_nonneg _) (Real.abs_sin_le_one _)
  have hpi := Real.pi_gt_d2
  have hT : Real.pi / 9 ≤ Real.tan (Real.pi / 9) := Real.le_tan (by positivity) (by linarith)
  have hd : 3 ≤ p 1 + 4 := by linarith [(abs_le.mp b1).1]
  have : 1 ≤ Real.tan (Real.pi / 9) * (p 1 + 4) := by nlinarith
  exact ⟨by linarith, b0.trans this, hz.trans this⟩

/-- C153 is false: the upper and the lower end of the helicoid are cut off; the ends of its axis are not in the picture. -/
theorem C153_cut_false [F.Exact] (u : ℝ) (hu : u = 0 ∨ u = 1) (p : Fin 3 → ℝ)
    (hp : HelicoidProgram.surface.eval (fin u) (fin 0) = (cv p : Vec (Fl F) 3)) :
    ¬ ∃ s t z : ℝ, (0 ≤ s ∧ s ≤ 1) ∧ (0 ≤ t ∧ t ≤ 1) ∧ 0 < z ∧
      ((HelicoidProgram.camera : Camera (Fl F)).getRay (fin s) (fin t)).at (fin z) = cv p := by
  rw [HelicoidProgram.visible_iff]
  rw [HelicoidProgram.surface_fin, Helicoid.eval_fin, cv_inj] at hp
  have h1 : p 1 = 0 := by rw [← hp]; simp [helPt]
  have h2 : |p 2| = 3 / 2 := by
    have : p 2 = 3 * (u - 1 / 2) := by rw [← hp]; simp [helPt]
    rw [this]
    rcases hu with rfl | rfl
    · rw [abs_of_neg] <;> norm_num
    · rw [abs_of_pos] <;> norm_num
  rintro ⟨-, -, h⟩
  rw [h1, h2] at h
  have hp0 := Real.pi_pos
  have hpi := Real.pi_lt_d2
  have hx : Real.pi / 9 < 35 / 100 := by linarith
  have hs : Real.sin (Real.pi / 9) < 35 / 100 := (Real.sin_lt (by positivity)).trans hx
  have hc : 1 - (Real.pi / 9) ^ 2 / 2 ≤ Real.cos (Real.pi / 9) := Real.one_sub_sq_div_two_le_cos
  have hc' : 93 / 100 < Real.cos (Real.pi / 9) := by nlinarith
  rw [Real.tan_eq_sin_div_cos] at h
  have : Real.sin (Real.pi / 9) / Real.cos (Real.pi / 9) < 3 / 8 := by
    rw [div_lt_iff₀ (by linarith)]
    nlinarith
  linarith

/-- The point in the middle is seen, the ends of the axis are not, and the cylinder is there. -/
example (junk : Fl exact64) (rec : HitRecord (Fl exact64)) : (∃ l, HelicoidProgram.objects junk = some l) ∧
    ∃ p q : Fin 3 → ℝ, HelicoidProgram.surface.eval (fin (1 / 2)) (fin 1) = (cv p : Vec (Fl exact64) 3) ∧ |p 2| ≤ 1 ∧
      HelicoidProgram.surface.eval (fin 1) (fin 0) = (cv q : Vec (Fl exact64) 3) := by
  refine ⟨?_, helPt 1 3 (1 / 2) 1, helPt 1 3 1 0, ?_, by simp [helPt], ?_⟩
  · obtain ⟨sc, h⟩ := HelicoidProgram.scene_some junk rec rec
    obtain ⟨l, hl, -⟩ := Option.map_eq_some_iff.mp h
    exact ⟨l, hl⟩
  · rw [HelicoidProgram.surface_fin, Helicoid.eval_fin]
  · rw [HelicoidProgram.surface_fin, Helicoid.eval_fin]

/-- Straight onto the glass every ray goes on. -/
example (rec : HitRecord (Fl exact64)) (hr : rec.normal = cv ![0, -1, 0]) :
    HelicoidProgram.materials[1]?.bind (fun m => m.scatter (lambertianSeed, fun _ => fin (1 / 2)) ⟨cv ![0, -4, 0], cv ![0, 1, 0]⟩ rec) =
      some (⟨true, some (cv ![1, 1, 1]), some ⟨rec.p, cv ![0, 1, 0]⟩⟩, (lambertianSeed, fun _ => fin (1 / 2))) :=
  (C153_glass (F := exact64) (lambertianSeed, fun _ => fin (1 / 2)) (1 / 2) rfl ![0, -4, 0] ![0, 1, 0] ![0, 1, 0] ![0, -1, 0]
    ⟨by simp [dotProduct, Fin.sum_univ_three], 1, one_pos, (one_smul _ _).symm⟩ rec hr (by simp [dotProduct, Fin.sum_univ_three])
    (by simp [dotProduct, Fin.sum_univ_three]) (by simp [dotProduct, Fin.sum_univ_three])).2

end DRT
