import Verif.Model.Scenes
import Verif.Lemmas.Surface
import Verif.Props.Vec

/-! # C112: the scene of random spheres -/

namespace DRT
open Scalar Fl Matrix

variable {F : Fmt}

/-- The point is in the solid ball of the sphere. -/
def InBall (s : Sphere (Fl F)) (p : Fin 3 → ℝ) : Prop :=
  ∃ (c : Fin 3 → ℝ) (r : ℝ), s.center = cv c ∧ s.radius = fin r ∧ (p - c) ⬝ᵥ (p - c) ≤ r ^ 2

/-- The point is in the interior of the ball of the sphere. -/
def InteriorOf (s : Sphere (Fl F)) (p : Fin 3 → ℝ) : Prop :=
  ∃ (c : Fin 3 → ℝ) (r : ℝ), s.center = cv c ∧ s.radius = fin r ∧ (p - c) ⬝ᵥ (p - c) < r ^ 2

/-- The distance of two points is at most the sum of their distances from a third. -/
theorem dist_centres (x y z x' y' z' r r' : ℝ) (hr : 0 ≤ r) (hr' : 0 ≤ r') (h : x ^ 2 + y ^ 2 + z ^ 2 ≤ r ^ 2)
    (h' : x' ^ 2 + y' ^ 2 + z' ^ 2 ≤ r' ^ 2) : (x - x') ^ 2 + (y - y') ^ 2 + (z - z') ^ 2 ≤ (r + r') ^ 2 := by
  have hc : (x * x' + y * y' + z * z') ^ 2 ≤ (r * r') ^ 2 := by
    calc (x * x' + y * y' + z * z') ^ 2 ≤ (x ^ 2 + y ^ 2 + z ^ 2) * (x' ^ 2 + y' ^ 2 + z' ^ 2) := by
          nlinarith [sq_nonneg (x * y' - y * x'), sq_nonneg (y * z' - z * y'), sq_nonneg (z * x' - x * z')]
      _ ≤ r ^ 2 * r' ^ 2 := mul_le_mul h h' (by positivity) (by positivity)
      _ = (r * r') ^ 2 := by ring
  have := (abs_le_of_sq_le_sq' hc (by positivity)).1
  nlinarith

/-- The small spheres in real numbers. -/
theorem smallSphere_fin [F.Exact] (a b : ℤ) (x z : ℝ) : (smallSphere a b (fin x) (fin z) : Option (Sphere (Fl F))) =
    if 9 / 10 < Real.sqrt ((a + 9 / 10 * x - 4) ^ 2 + (b + 9 / 10 * z) ^ 2) then
      some ⟨cv ![a + 9 / 10 * x, 1 / 5, b + 9 / 10 * z], fin (1 / 5)⟩ else none := by
  have h1 : (smallCenter a b (fin x) (fin z) : Vec (Fl F) 3) = cv ![a + 9 / 10 * x, 1 / 5, b + 9 / 10 * z] := by
    funext k
    unfold smallCenter
    fin_cases k
    · show (lit _ : Fl F) + lit _ * fin x = fin _
      rw [lit_def, lit_def, Fl.mul_fin, Fl.add_fin]; norm_num
    · show (lit _ : Fl F) = fin _
      rw [lit_def]; norm_num
    · show (lit _ : Fl F) + lit _ * fin z = fin _
      rw [lit_def, lit_def, Fl.mul_fin, Fl.add_fin]; norm_num
  have h2 : (![4, lit (2 / 10), 0] : Vec (Fl F) 3) = cv ![4, 1 / 5, 0] := by
    funext k
    fin_cases k
    · show (4 : Fl F) = fin _; rw [ofNat_def]; norm_num
    · show (lit _ : Fl F) = fin _; rw [lit_def]; norm_num
    · show (0 : Fl F) = fin _; rw [ofNat_def]; norm_num
  have h3 : (lit (9 / 10) : Fl F) = fin (9 / 10) := by rw [lit_def]; norm_num
  have h4 : (lit (2 / 10) : Fl F) = fin (1 / 5) := by rw [lit_def]; norm_num
  have h5 : (![(a : ℝ) + 9 / 10 * x, 1 / 5, b + 9 / 10 * z] - ![4, 1 / 5, 0]) ⬝ᵥ (![(a : ℝ) + 9 / 10 * x, 1 / 5, b + 9 / 10 * z] - ![4, 1 / 5, 0]) =
      (a + 9 / 10 * x - 4) ^ 2 + (b + 9 / 10 * z) ^ 2 := by
    simp [dotProduct, Fin.sum_univ_three]; ring
  unfold smallSphere
  dsimp only
  rw [h1, h2, cv_sub, cv_norm, h3, h4, h5]
  unfold Scalar.gt
  rw [lt_fin]
  simp only [decide_eq_true_eq]

theorem metalSphere_fin [F.Exact] : (metalSphere : Sphere (Fl F)) = ⟨cv ![4, 1, 0], fin 1⟩ := by
  unfold metalSphere
  congr 1
  · funext k
    fin_cases k
    · show (4 : Fl F) = fin _; rw [ofNat_def]; norm_num
    · show (1 : Fl F) = fin _; rw [ofNat_def]; norm_num
    · show (0 : Fl F) = fin _; rw [ofNat_def]; norm_num
  · rw [ofNat_def]; norm_num

theorem glassSphere_fin [F.Exact] : (glassSphere : Sphere (Fl F)) = ⟨cv ![0, 1, 0], fin 1⟩ := by
  unfold glassSphere
  congr 1
  · funext k
    fin_cases k
    · show (0 : Fl F) = fin _; rw [ofNat_def]; norm_num
    · show (1 : Fl F) = fin _; rw [ofNat_def]; norm_num
    · show (0 : Fl F) = fin _; rw [ofNat_def]; norm_num
  · rw [ofNat_def]; norm_num

theorem groundSphere_fin [F.Exact] : (groundSphere : Sphere (Fl F)) = ⟨cv ![0, -1000, 0], fin 1000⟩ := by
  unfold groundSphere
  congr 1
  · funext k
    fin_cases k
    · show (0 : Fl F) = fin _; rw [ofNat_def]; norm_num
    · show -(1000 : Fl F) = fin _; rw [ofNat_def, Fl.neg_fin]; norm_num
    · show (0 : Fl F) = fin _; rw [ofNat_def]; norm_num
  · rw [ofNat_def]; norm_num

/-- C112: whatever the random numbers, a small sphere that is kept has no point in common with the large metal sphere, and it does
not reach into the ground. -/
theorem C112_apart_partial [F.Exact] (a b : ℤ) (x z : ℝ) (s : Sphere (Fl F)) (hs : smallSphere a b (fin x) (fin z) = some s)
    (p : Fin 3 → ℝ) (hp : InBall s p) : ¬ InBall (metalSphere : Sphere (Fl F)) p ∧ ¬ InteriorOf (groundSphere : Sphere (Fl F)) p := by
  rw [smallSphere_fin] at hs
  split_ifs at hs with hd
  cases hs
  obtain ⟨c, r, hc, hr, hpc⟩ := hp
  simp only at hc hr
  rw [cv_inj] at hc
  rw [fin_inj] at hr
  subst hc hr
  have hd2 : (9 / 10) ^ 2 < ((a : ℝ) + 9 / 10 * x - 4) ^ 2 + (b + 9 / 10 * z) ^ 2 := by
    rw [Real.lt_sqrt (by norm_num)] at hd
    exact hd
  obtain ⟨X, hX⟩ : ∃ X, X = (a : ℝ) + 9 / 10 * x := ⟨_, rfl⟩
  obtain ⟨Z, hZ⟩ : ∃ Z, Z = (b : ℝ) + 9 / 10 * z := ⟨_, rfl⟩
  rw [← hX, ← hZ] at hpc
  rw [← hX, ← hZ] at hd2
  obtain ⟨p0, h0⟩ : ∃ t, t = p 0 := ⟨_, rfl⟩
  obtain ⟨p1, h1⟩ : ∃ t, t = p 1 := ⟨_, rfl⟩
  obtain ⟨p2, h2⟩ : ∃ t, t = p 2 := ⟨_, rfl⟩
  simp [dotProduct, Fin.sum_univ_three, ← h0, ← h1, ← h2] at hpc
  constructor
  · rintro ⟨c, r, hc, hr, hpm⟩
    rw [metalSphere_fin] at hc hr
    simp only at hc hr
    rw [cv_inj] at hc
    rw [fin_inj] at hr
    subst hc hr
    simp [dotProduct, Fin.sum_univ_three, ← h0, ← h1, ← h2] at hpm
    -- the squared distance of the centres is at most 1.2 squared
    have h3 := dist_centres (p0 - X) (p1 - 5⁻¹) (p2 - Z) (p0 - 4) (p1 - 1) p2 (1 / 5) 1 (by norm_num) (by norm_num)
      (by linarith) (by linarith)
    nlinarith
  · rintro ⟨c, r, hc, hr, hpm⟩
    rw [groundSphere_fin] at hc hr
    simp only at hc hr
    rw [cv_inj] at hc
    rw [fin_inj] at hr
    subst hc hr
    simp [dotProduct, Fin.sum_univ_three, ← h0, ← h1, ← h2] at hpm
    have h4 : 0 ≤ p1 := by nlinarith [sq_nonneg (p0 - X), sq_nonneg (p2 - Z)]
    nlinarith [sq_nonneg p0, sq_nonneg p2]

/-- C112, refuted for the other spheres: the small sphere of the cell at the origin is kept although it overlaps the large
glass sphere; the small spheres of two neighbouring cells can have a common interior point. -/
theorem C112_overlap_false [F.Exact] :
    (∃ s : Sphere (Fl F), smallSphere 0 0 (fin (1 / 2)) (fin (1 / 2)) = some s ∧ ∃ p, InteriorOf s p ∧ InteriorOf (glassSphere : Sphere (Fl F)) p) ∧
    ∃ s s' : Sphere (Fl F), smallSphere 7 0 (fin (9 / 10)) (fin 0) = some s ∧ smallSphere 8 0 (fin (1 / 10)) (fin 0) = some s' ∧
      ∃ p, InteriorOf s p ∧ InteriorOf s' p := by
  have h1 : ∀ y : ℝ, (9 / 10) ^ 2 < y → 9 / 10 < Real.sqrt y := fun y hy => (Real.lt_sqrt (by norm_num)).mpr hy
  refine ⟨⟨_, by rw [smallSphere_fin, if_pos (h1 _ (by norm_num))], ![2 / 5, 3 / 10, 2 / 5], ⟨_, _, rfl, rfl, ?_⟩,
      ⟨_, _, by rw [glassSphere_fin], by rw [glassSphere_fin], ?_⟩⟩,
    ⟨_, _, by rw [smallSphere_fin, if_pos (h1 _ (by norm_num))], by rw [smallSphere_fin, if_pos (h1 _ (by norm_num))],
      ![79 / 10, 1 / 5, 0], ⟨_, _, rfl, rfl, ?_⟩, ⟨_, _, rfl, rfl, ?_⟩⟩⟩
  all_goals
    simp only [dotProduct, Fin.sum_univ_three, Pi.sub_apply, Matrix.cons_val_zero, Matrix.cons_val_one, Matrix.cons_val]
    norm_num

/-- The small sphere of the cell `(3, 1)` is kept. -/
example : ∃ s : Sphere (Fl exact64), smallSphere 3 1 (fin (1 / 2)) (fin (1 / 2)) = some s ∧ ∃ p, InBall s p := by
  have h1 : ∀ y : ℝ, (9 / 10) ^ 2 < y → 9 / 10 < Real.sqrt y := fun y hy => (Real.lt_sqrt (by norm_num)).mpr hy
  exact ⟨_, by rw [smallSphere_fin, if_pos (h1 _ (by norm_num))], _, _, _, rfl, rfl, by rw [sub_self]; norm_num⟩

end DRT
