import Verif.Lemmas.Vec
import Verif.Model.Matrix
import Mathlib.LinearAlgebra.Matrix.DotProduct

/-!
# C01-C05: vectors

`cv v` is the library vector with the finite components `v`.
`u ⬝ᵥ v` and `u ⨯₃ v` are Mathlib's dot and cross product.
-/

namespace DRT
open Scalar Vec Fl Matrix

variable {F : Fmt} [F.Exact] {n : ℕ}

/-! ## C01 -/

/-- C01: the operators act componentwise, for every dimension. -/
theorem C01_componentwise (u v : Fin n → ℝ) (t : ℝ) (i : Fin n) :
    (cv u + cv v : Vec (Fl F) n) i = fin (u i + v i) ∧
    (cv u - cv v : Vec (Fl F) n) i = fin (u i - v i) ∧
    (-(cv u : Vec (Fl F) n)) i = fin (-u i) ∧
    ((fin t : Fl F) •. (cv u : Vec (Fl F) n)) i = fin (t * u i) ∧
    (t ≠ 0 → ((cv u : Vec (Fl F) n) /. (fin t : Fl F)) i = fin (u i / t)) ∧
    (t ≠ 0 → (divAssign (cv u : Vec (Fl F) n) (fin t : Fl F)) i = fin (u i / t)) := by
  refine ⟨by simp [cv], by simp [cv], by simp [cv], by simp [cv, Vec.smul], fun h => ?_, fun h => ?_⟩
  · simp [cv, Vec.sdiv, div_fin _ h]
  · simp only [divAssign, cv, ofNat_one, div_fin _ h, mul_fin, fin_inj]
    rw [mul_one_div]

example : ((cv ![1, 2] : Vec (Fl exact64) 2) /. (fin 2 : Fl exact64)) 1 = fin 1 := by
  rw [(C01_componentwise (F := exact64) ![1, 2] 0 2 1).2.2.2.2.1 (by norm_num)]; norm_num

/-- C01: `dot` is the sum of products of components. -/
theorem C01_dot_eq_sum (u v : Fin n → ℝ) :
    dot (cv u : Vec (Fl F) n) (cv v) = fin (∑ i, u i * v i) := cv_dot u v

example : dot (cv ![1, 2, 3] : Vec (Fl exact64) 3) (cv ![4, -5, 6]) = fin 12 := by
  rw [C01_dot_eq_sum]; simp [Fin.sum_univ_three]; norm_num

/-- C01: `dot` is symmetric. -/
theorem C01_dot_comm (u v : Fin n → ℝ) :
    dot (cv u : Vec (Fl F) n) (cv v) = dot (cv v) (cv u) := by
  rw [cv_dot, cv_dot, dotProduct_comm]

/-- C01: `dot` is linear in its first argument (hence, by symmetry, bilinear). -/
theorem C01_dot_linear (u v w : Fin n → ℝ) (t : ℝ) :
    dot ((fin t : Fl F) •. cv u + cv v : Vec (Fl F) n) (cv w) =
      fin t * dot (cv u) (cv w) + dot (cv v) (cv w) := by
  simp only [fl, add_dotProduct, smul_dotProduct, smul_eq_mul]

example : dot ((fin 2 : Fl exact64) •. cv ![1, 0] + cv ![0, 3] : Vec (Fl exact64) 2) (cv ![5, 7])
    = fin 31 := by
  rw [C01_dot_linear]; simp only [fl, dotProduct, Fin.sum_univ_two]; norm_num

/-- C01: `squared_norm(v)` is `dot(v,v)`, is never negative and vanishes only at zero;
`norm(v)` is the non-negative number whose square it is. -/
theorem C01_norm (v : Fin n → ℝ) :
    squaredNorm (cv v : Vec (Fl F) n) = dot (cv v) (cv v) ∧
    (∃ s m : ℝ, squaredNorm (cv v : Vec (Fl F) n) = fin s ∧ Vec.norm (cv v : Vec (Fl F) n) = fin m ∧
      0 ≤ s ∧ (s = 0 ↔ v = 0) ∧ 0 ≤ m ∧ m * m = s) := by
  refine ⟨by rw [cv_squaredNorm, cv_dot], v ⬝ᵥ v, Real.sqrt (v ⬝ᵥ v), cv_squaredNorm v, cv_norm v,
    dotProduct_self_nonneg' v, dotProduct_self_eq_zero, Real.sqrt_nonneg _, ?_⟩
  exact Real.mul_self_sqrt (dotProduct_self_nonneg' v)

example : Vec.norm (cv ![3, 4] : Vec (Fl exact64) 2) = fin 5 := by
  rw [cv_norm]; simp only [dotProduct, Fin.sum_univ_two]
  rw [fin_inj, Real.sqrt_eq_iff_mul_self_eq (by norm_num) (by norm_num)]; norm_num

/-! ## C02 -/

/-- C02: `normalize` of a nonzero vector has squared norm exactly 1 and is a positive multiple of it. -/
theorem C02_normalize_unit (v : Fin n → ℝ) (hv : v ≠ 0) :
    ∃ w : Fin n → ℝ, Vec.normalize (cv v : Vec (Fl F) n) = cv w ∧ w ⬝ᵥ w = 1 ∧
      ∃ c : ℝ, 0 < c ∧ ∀ i, v i = c * w i := by
  have hs : 0 < v ⬝ᵥ v := by
    refine lt_of_le_of_ne (dotProduct_self_nonneg' v) fun h => hv ?_
    exact dotProduct_self_eq_zero.mp h.symm
  have hm : 0 < Real.sqrt (v ⬝ᵥ v) := Real.sqrt_pos.mpr hs
  refine ⟨(Real.sqrt (v ⬝ᵥ v))⁻¹ • v, ?_, ?_, _, hm, fun i => ?_⟩
  · funext i
    simp only [Vec.normalize, cv_norm]
    simp [cv, div_fin _ hm.ne', div_eq_inv_mul]
  · rw [smul_dotProduct, dotProduct_smul, smul_eq_mul, smul_eq_mul]
    have := Real.mul_self_sqrt hs.le
    field_simp
    nlinarith
  · simp only [Pi.smul_apply, smul_eq_mul]
    field_simp

example : ∃ w : Fin 3 → ℝ, Vec.normalize (cv ![0, 3, 4] : Vec (Fl exact64) 3) = cv w ∧ w ⬝ᵥ w = 1 := by
  obtain ⟨w, h, h1, _⟩ := C02_normalize_unit (F := exact64) ![0, 3, 4] (by
    intro h; have := congrFun h 1; simp at this)
  exact ⟨w, h, h1⟩

/-- C02: `normalize` of the zero vector is NaN in every component. -/
theorem C02_normalize_zero (i : Fin n) : Vec.normalize (cv (0 : Fin n → ℝ) : Vec (Fl F) n) i = Fl.nan := by
  simp only [Vec.normalize, cv_norm]
  simp [cv]

example : Vec.normalize (cv (0 : Fin 3 → ℝ) : Vec (Fl exact64) 3) 2 = Fl.nan := C02_normalize_zero 2

/-! ## C03 -/

/-- C03: `difference_of_products(a,b,c,d) = ab - cd`. -/
theorem C03_difference_of_products (a b c d : ℝ) :
    differenceOfProducts (fin a : Fl F) (fin b) (fin c) (fin d) = fin (a * b - c * d) :=
  dop_fin a b c d

example : differenceOfProducts (fin 2 : Fl exact64) (fin 3) (fin 5) (fin 7) = fin (-29) := by
  rw [C03_difference_of_products]; norm_num

/-- C03: `cross(u,v)` is orthogonal to both arguments. -/
theorem C03_cross_orthogonal (u v : Fin 3 → ℝ) :
    dot (cv u : Vec (Fl F) 3) (cross (cv u) (cv v)) = fin 0 ∧
    dot (cv v : Vec (Fl F) 3) (cross (cv u) (cv v)) = fin 0 := by
  simp only [fl, dot_self_cross, dot_cross_self, and_self]

/-- C03: `cross` anticommutes. -/
theorem C03_cross_anticomm (u v : Fin 3 → ℝ) :
    cross (cv u : Vec (Fl F) 3) (cv v) = -cross (cv v) (cv u) := by
  simp only [fl, cross_anticomm]

/-- C03: the squared length of `cross(u,v)` is `|u|²|v|² - (u·v)²`. -/
theorem C03_cross_length (u v : Fin 3 → ℝ) :
    squaredNorm (cross (cv u : Vec (Fl F) 3) (cv v)) =
      fin ((u ⬝ᵥ u) * (v ⬝ᵥ v) - (u ⬝ᵥ v) * (u ⬝ᵥ v)) := by
  simp only [fl, cross_dot_cross, dotProduct_comm v u]

/-- C03: orientation: the component formula, so that `cross(e_x, e_y) = e_z`. -/
theorem C03_cross_components (u v : Fin 3 → ℝ) :
    cross (cv u : Vec (Fl F) 3) (cv v) =
      cv ![u 1 * v 2 - u 2 * v 1, u 2 * v 0 - u 0 * v 2, u 0 * v 1 - u 1 * v 0] := by
  simp only [fl, cross_apply]

/-- C03: `cross(u,v)` vanishes exactly when the vectors are parallel. -/
theorem C03_cross_zero_iff_parallel (u v : Fin 3 → ℝ) :
    cross (cv u : Vec (Fl F) 3) (cv v) = cv 0 ↔
      ∃ a b : ℝ, (a ≠ 0 ∨ b ≠ 0) ∧ a • u + b • v = 0 := by
  rw [cv_cross, cv_inj]
  constructor
  · intro h
    by_cases hu : u = 0
    · exact ⟨1, 0, by simp, by simp [hu]⟩
    · have hs : u ⬝ᵥ u ≠ 0 := fun h' => hu (dotProduct_self_eq_zero.mp h')
      refine ⟨-(u ⬝ᵥ v), u ⬝ᵥ u, Or.inr hs, ?_⟩
      rw [cross_apply] at h
      have h0 := congrFun h 0; have h1 := congrFun h 1; have h2 := congrFun h 2
      simp at h0 h1 h2
      funext i
      fin_cases i <;> simp [dotProduct, Fin.sum_univ_three]
      · linear_combination u 1 * (-h2) + u 2 * h1
      · linear_combination u 0 * h2 - u 2 * h0
      · linear_combination (-u 0) * h1 + u 1 * h0
  · rintro ⟨a, b, hab, h⟩
    have h0 := congrFun h 0; have h1 := congrFun h 1; have h2 := congrFun h 2
    simp at h0 h1 h2
    rw [cross_apply]
    rcases hab with ha | hb
    · funext i
      fin_cases i <;> simp <;> apply mul_left_cancel₀ ha
      · linear_combination v 2 * h1 - v 1 * h2
      · linear_combination v 0 * h2 - v 2 * h0
      · linear_combination v 1 * h0 - v 0 * h1
    · funext i
      fin_cases i <;> simp <;> apply mul_left_cancel₀ hb
      · linear_combination u 1 * h2 - u 2 * h1
      · linear_combination u 2 * h0 - u 0 * h2
      · linear_combination u 0 * h1 - u 1 * h0

example : cross (cv ![1, 0, 0] : Vec (Fl exact64) 3) (cv ![0, 1, 0]) = cv ![0, 0, 1] := by
  rw [C03_cross_components]; simp

/-! ## C04 -/

/-- C04: reflection about a unit normal preserves length, flips the normal component, keeps every
tangential component and is an involution. -/
theorem C04_reflect (v m : Fin n → ℝ) (hm : m ⬝ᵥ m = 1) :
    ∃ w : Fin n → ℝ, reflect (cv v : Vec (Fl F) n) (cv m) = cv w ∧
      w ⬝ᵥ w = v ⬝ᵥ v ∧ w ⬝ᵥ m = -(v ⬝ᵥ m) ∧
      (∀ s : Fin n → ℝ, s ⬝ᵥ m = 0 → w ⬝ᵥ s = v ⬝ᵥ s) ∧
      reflect (cv w : Vec (Fl F) n) (cv m) = cv v := by
  refine ⟨v - (2 * (v ⬝ᵥ m)) • m, cv_reflect v m, ?_, ?_, fun s hs => ?_, ?_⟩
  · simp only [sub_dotProduct, dotProduct_sub, smul_dotProduct, dotProduct_smul, smul_eq_mul, hm,
      dotProduct_comm m v]; ring
  · simp only [sub_dotProduct, smul_dotProduct, smul_eq_mul, hm]; ring
  · simp only [sub_dotProduct, smul_dotProduct, smul_eq_mul, dotProduct_comm m s, hs]; ring
  · rw [cv_reflect, cv_inj]
    simp only [sub_dotProduct, smul_dotProduct, smul_eq_mul, hm]
    funext i
    simp; ring

example : reflect (cv ![1, -1] : Vec (Fl exact64) 2) (cv ![0, 1]) = cv ![1, 1] ∧
    (![0, 1] : Fin 2 → ℝ) ⬝ᵥ ![0, 1] = 1 := by
  refine ⟨?_, by simp⟩
  rw [cv_reflect, cv_inj]; funext i; fin_cases i <;> simp [dotProduct, Fin.sum_univ_two]; norm_num

/-! ## C05 -/

theorem maxNorm_fold (f : ℕ → ℝ) (m0 : ℝ) (k : ℕ) :
    ∃ m : ℝ, Fin.foldl k (fun (m : Fl F) (i : Fin k) =>
      if gt (Scalar.abs (fin (f i))) m then Scalar.abs (fin (f i)) else m) (fin m0) = fin m ∧
      m0 ≤ m ∧ (∀ i, i < k → |f i| ≤ m) ∧ (m = m0 ∨ ∃ i, i < k ∧ m = |f i|) := by
  induction k with
  | zero => exact ⟨m0, by simp, le_rfl, by simp, Or.inl rfl⟩
  | succ k ih =>
    obtain ⟨m, h, h0, h1, h2⟩ := ih
    rw [Fin.foldl_succ_last]
    simp only [Fin.val_castSucc, Fin.val_last]
    rw [h]
    simp only [fl, decide_eq_true_eq]
    by_cases hlt : m < |f k|
    · refine ⟨|f k|, by simp [hlt], h0.trans hlt.le, fun i hi => ?_, Or.inr ⟨k, by omega, rfl⟩⟩
      rcases Nat.lt_succ_iff_lt_or_eq.mp hi with hi | rfl
      · exact (h1 i hi).trans hlt.le
      · exact le_rfl
    · refine ⟨m, by simp [hlt], h0, fun i hi => ?_, ?_⟩
      · rcases Nat.lt_succ_iff_lt_or_eq.mp hi with hi | rfl
        · exact h1 i hi
        · exact not_lt.mp hlt
      · rcases h2 with h2 | ⟨i, hi, h2⟩
        · exact Or.inl h2
        · exact Or.inr ⟨i, by omega, h2⟩

/-- C05: on finite vectors of every positive dimension `max_norm` is the largest absolute component. -/
theorem C05_max_norm_finite_partial (v : Fin (n + 1) → ℝ) :
    ∃ m : ℝ, maxNorm (cv v : Vec (Fl F) (n + 1)) = fin m ∧ (∀ i, |v i| ≤ m) ∧ ∃ i, m = |v i| := by
  obtain ⟨m, h, h0, h1, h2⟩ := maxNorm_fold (F := F) (fun i => if h : i < n then v (Fin.succ ⟨i, h⟩) else 0) |v 0| n
  refine ⟨m, ?_, fun i => ?_, ?_⟩
  · rw [← h]
    simp [maxNorm, cv]
    rfl
  · refine Fin.cases h0 (fun j => ?_) i
    have := h1 j j.2
    simpa using this
  · rcases h2 with h2 | ⟨i, hi, h2⟩
    · exact ⟨0, h2⟩
    · exact ⟨Fin.succ ⟨i, hi⟩, by simpa [hi] using h2⟩

example : ∃ m : ℝ, maxNorm (cv ![1, -7, 3] : Vec (Fl exact64) 3) = fin m ∧ |(-7 : ℝ)| ≤ m := by
  obtain ⟨m, h, h1, _⟩ := C05_max_norm_finite_partial (F := exact64) ![1, -7, 3]
  exact ⟨m, h, h1 1⟩

/-- C05 for `matrix::max_norm`: `v` lists the entries of a finite matrix in storage order. -/
theorem C05_matrix_max_norm_partial (v : Fin (n + 1) → ℝ) :
    ∃ m : ℝ, Mat.maxNorm (fun i => (fin (v i) : Fl F)) = fin m ∧ (∀ i, |v i| ≤ m) ∧ ∃ i, m = |v i| :=
  C05_max_norm_finite_partial v

example : ∃ m : ℝ, Mat.maxNorm (fun i => (fin ((![1, 2, -7, 3] : Fin 4 → ℝ) i) : Fl exact64)) = fin m ∧ 7 ≤ m := by
  obtain ⟨m, h, h1, _⟩ := C05_matrix_max_norm_partial (F := exact64) ![1, 2, -7, 3]
  exact ⟨m, h, by simpa using h1 2⟩

omit [F.Exact] in
/-- C05 fails: a NaN in a later component is hidden, under every rounding. The vector `(x, NaN)` has
the max-norm `|x|`, so it can pass a convergence test. -/
theorem C05_nan_hidden_false (x : ℝ) :
    maxNorm (![fin x, Fl.nan] : Vec (Fl F) 2) = fin |x| ∧
      ∀ tol : ℝ, |x| ≤ tol → le (maxNorm (![fin x, Fl.nan] : Vec (Fl F) 2)) (fin tol) = true := by
  have h : maxNorm (![fin x, Fl.nan] : Vec (Fl F) 2) = fin |x| := by
    simp [maxNorm, gt, Fin.foldl_succ]
  exact ⟨h, fun tol ht => by rw [h]; simpa using ht⟩

omit [F.Exact] in
/-- C05, what does hold for NaN: a NaN in the first component is never hidden. -/
theorem C05_nan_first_partial (v : Vec (Fl F) (n + 1)) (h : v 0 = Fl.nan) : maxNorm v = Fl.nan := by
  have : ∀ k (f : Fin k → Fl F), Fin.foldl k (fun (m : Fl F) i =>
      if gt (Scalar.abs (f i)) m then Scalar.abs (f i) else m) Fl.nan = Fl.nan := by
    intro k
    induction k with
    | zero => intro f; simp
    | succ k ih => intro f; rw [Fin.foldl_succ_last, ih]; simp [gt]
  rw [maxNorm, h, abs_nan]
  exact this n fun i => v i.succ

example : maxNorm (![Fl.nan, fin 1] : Vec (Fl exact64) 2) = Fl.nan := C05_nan_first_partial _ rfl

end DRT
