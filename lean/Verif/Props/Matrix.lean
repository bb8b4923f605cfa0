import Verif.Lemmas.Matrix

/-!
# C06-C11: matrices and tensors

`cm M` and `cv v` are the library matrix and vector with the finite entries `M`, `v`.
`Matrix.det`, `*` and `*ᵥ` are Mathlib's.
-/

namespace DRT
open Scalar Fl Matrix

variable {F : Fmt} [F.Exact]

/-! ## C06 -/

/-- C06: `determinant` of a 2x2 matrix is the mathematical determinant. -/
theorem C06_det2 (M : Matrix (Fin 2) (Fin 2) ℝ) : Mat.det2 (cm M : Mat (Fl F) 2 2) = fin M.det :=
  cm_det2 M

/-- C06: `determinant` of a 3x3 matrix is the mathematical determinant. -/
theorem C06_det3 (M : Matrix (Fin 3) (Fin 3) ℝ) : Mat.det3 (cm M : Mat (Fl F) 3 3) = fin M.det :=
  cm_det3 M

/-- C06: `determinant` is multiplicative with respect to `operator*`. -/
theorem C06_det_mul (M N : Matrix (Fin 3) (Fin 3) ℝ) (M' N' : Matrix (Fin 2) (Fin 2) ℝ) :
    Mat.det3 (Mat.mul (cm M) (cm N) : Mat (Fl F) 3 3) = Mat.det3 (cm M) * Mat.det3 (cm N) ∧
    Mat.det2 (Mat.mul (cm M') (cm N') : Mat (Fl F) 2 2) = Mat.det2 (cm M') * Mat.det2 (cm N') := by
  simp only [cm_mul, cm_det3, cm_det2, det_mul, mul_fin, and_self]

/-- C06: `determinant` is zero exactly when some nonzero vector is mapped to zero. -/
theorem C06_det_zero_iff (M : Matrix (Fin 3) (Fin 3) ℝ) (M' : Matrix (Fin 2) (Fin 2) ℝ) :
    (Mat.det3 (cm M : Mat (Fl F) 3 3) = fin 0 ↔
      ∃ v : Fin 3 → ℝ, v ≠ 0 ∧ Mat.mulVec (cm M : Mat (Fl F) 3 3) (cv v) = cv 0) ∧
    (Mat.det2 (cm M' : Mat (Fl F) 2 2) = fin 0 ↔
      ∃ v : Fin 2 → ℝ, v ≠ 0 ∧ Mat.mulVec (cm M' : Mat (Fl F) 2 2) (cv v) = cv 0) := by
  simp only [cm_det3, cm_det2, fin_inj, cm_mulVec, cv_inj, exists_mulVec_eq_zero_iff, and_self]

example : Mat.det3 (cm !![1, -1, 1; 1, 2, 1; 2, 1, 1] : Mat (Fl exact64) 3 3) = fin (-3) := by
  rw [C06_det3, det_fin_three]; simp; norm_num

/-! ## C07 -/

/-- C07 for 2x2: success exactly above the threshold, and then a two-sided inverse;
on failure the output keeps its prior contents. -/
theorem C07_inverse2 (M : Matrix (Fin 2) (Fin 2) ℝ) (out : Mat (Fl F) 2 2) :
    ((Mat.inverse2 (cm M) out).1 = true ↔ F.tiny < |M.det|) ∧
    ((Mat.inverse2 (cm M) out).1 = true → ∃ N : Matrix (Fin 2) (Fin 2) ℝ,
      (Mat.inverse2 (cm M) out).2 = cm N ∧ M * N = 1 ∧ N * M = 1) ∧
    ((Mat.inverse2 (cm M) out).1 = false → (Mat.inverse2 (cm M) out).2 = out) := by
  unfold Mat.inverse2
  simp only [cm_det2, fl, decide_eq_true_eq]
  have ht : (0 : ℝ) ≤ F.tiny := Fmt.Exact.tiny_nonneg
  by_cases h : |M.det| ≤ F.tiny
  · simp [h]
  · have hd : M.det ≠ 0 := by
      intro h0; rw [h0, abs_zero] at h; exact h ht
    have key : M * !![M 1 1 * (1 / M.det), -M 0 1 * (1 / M.det); -M 1 0 * (1 / M.det), M 0 0 * (1 / M.det)] = 1 := by
      have hD := det_fin_two M
      generalize M.det = D at hd hD
      funext i j
      fin_cases i <;> fin_cases j <;> simp [Matrix.mul_apply, Fin.sum_univ_two, Matrix.one_apply] <;>
        field_simp <;> (try rw [hD]) <;> ring
    simp only [h, Nat.cast_one, if_false, true_iff, not_le.mp h, div_fin _ hd, mul_fin, reduceCtorEq, false_imp_iff,
      and_true, true_and]
    refine fun _ => ⟨_, ?_, key, mul_eq_one_comm.mp key⟩
    funext i j
    fin_cases i <;> fin_cases j <;> rfl

/-- C07 for 3x3. -/
theorem C07_inverse3 (M : Matrix (Fin 3) (Fin 3) ℝ) (out : Mat (Fl F) 3 3) :
    ((Mat.inverse3 (cm M) out).1 = true ↔ F.tiny < |M.det|) ∧
    ((Mat.inverse3 (cm M) out).1 = true → ∃ N : Matrix (Fin 3) (Fin 3) ℝ,
      (Mat.inverse3 (cm M) out).2 = cm N ∧ M * N = 1 ∧ N * M = 1) ∧
    ((Mat.inverse3 (cm M) out).1 = false → (Mat.inverse3 (cm M) out).2 = out) := by
  unfold Mat.inverse3
  simp only [cm_det3, fl, decide_eq_true_eq]
  have ht : (0 : ℝ) ≤ F.tiny := Fmt.Exact.tiny_nonneg
  by_cases h : |M.det| ≤ F.tiny
  · simp [h]
  · have hd : M.det ≠ 0 := by
      intro h0; rw [h0, abs_zero] at h; exact h ht
    have key : M * !![(M 1 1 * M 2 2 - M 1 2 * M 2 1) * (1 / M.det), (M 0 2 * M 2 1 - M 0 1 * M 2 2) * (1 / M.det), (M 0 1 * M 1 2 - M 0 2 * M 1 1) * (1 / M.det);
        (M 1 2 * M 2 0 - M 1 0 * M 2 2) * (1 / M.det), (M 0 0 * M 2 2 - M 0 2 * M 2 0) * (1 / M.det), (M 0 2 * M 1 0 - M 0 0 * M 1 2) * (1 / M.det);
        (M 1 0 * M 2 1 - M 1 1 * M 2 0) * (1 / M.det), (M 0 1 * M 2 0 - M 0 0 * M 2 1) * (1 / M.det), (M 0 0 * M 1 1 - M 0 1 * M 1 0) * (1 / M.det)] = 1 := by
      have hD := det_fin_three M
      generalize M.det = D at hd hD
      funext i j
      fin_cases i <;> fin_cases j <;> simp [Matrix.mul_apply, Fin.sum_univ_three, Matrix.one_apply] <;>
        field_simp <;> (try rw [hD]) <;> ring
    simp only [h, Nat.cast_one, if_false, true_iff, not_le.mp h, div_fin _ hd, mul_fin, reduceCtorEq, false_imp_iff,
      and_true, true_and]
    refine fun _ => ⟨_, ?_, key, mul_eq_one_comm.mp key⟩
    funext i j
    fin_cases i <;> fin_cases j <;> rfl

example : (Mat.inverse2 (cm !![1, -1; 2, 3] : Mat (Fl exact64) 2 2) (fun _ _ => Fl.nan)).1 = true := by
  rw [(C07_inverse2 _ _).1, det_fin_two]
  have : (exact64.tiny : ℝ) < 1 := Fmt.Exact.tiny_lt
  simp; norm_num; linarith

/-- C07: the value-returning overload yields an indeterminate matrix exactly when the inversion fails. -/
theorem C07_inverse_value (M : Matrix (Fin 3) (Fin 3) ℝ) (M' : Matrix (Fin 2) (Fin 2) ℝ) :
    (Mat.inverseVal3 (cm M : Mat (Fl F) 3 3) = none ↔ |M.det| ≤ F.tiny) ∧
    (Mat.inverseVal2 (cm M' : Mat (Fl F) 2 2) = none ↔ |M'.det| ≤ F.tiny) := by
  constructor
  · have h := (C07_inverse3 M (fun _ _ => (Scalar.nan : Fl F))).1
    unfold Mat.inverseVal3
    rcases hh : Mat.inverse3 (cm M) (fun _ _ => (Scalar.nan : Fl F)) with ⟨b, x⟩
    rw [hh] at h
    cases b <;> simpa using h
  · have h := (C07_inverse2 M' (fun _ _ => (Scalar.nan : Fl F))).1
    unfold Mat.inverseVal2
    rcases hh : Mat.inverse2 (cm M') (fun _ _ => (Scalar.nan : Fl F)) with ⟨b, x⟩
    rw [hh] at h
    cases b <;> simpa using h

example : Mat.inverseVal2 (cm !![1, 2; 2, 4] : Mat (Fl exact64) 2 2) = none := by
  rw [(C07_inverse_value 0 _).2, det_fin_two]; simp
  norm_num [Fmt.Exact.tiny_nonneg]

/-! ## C08 -/

/-- C08: `(A*B)*v = A*(B*v)` for all shapes. -/
theorem C08_mul_mulVec {r c k : ℕ} (A : Matrix (Fin r) (Fin c) ℝ) (B : Matrix (Fin c) (Fin k) ℝ)
    (v : Fin k → ℝ) :
    Mat.mulVec (Mat.mul (cm A) (cm B) : Mat (Fl F) r k) (cv v) =
      Mat.mulVec (cm A) (Mat.mulVec (cm B) (cv v)) := by
  simp only [fl, mulVec_mulVec]

/-- C08: `operator*(M,v)` is the matrix-vector product. -/
theorem C08_mulVec_spec {r c : ℕ} (A : Matrix (Fin r) (Fin c) ℝ) (v : Fin c → ℝ) (i : Fin r) :
    Mat.mulVec (cm A : Mat (Fl F) r c) (cv v) i = fin (∑ j, A i j * v j) := by
  rw [cm_mulVec]; rfl

/-- C08: `operator*(A,B)` is the matrix product. -/
theorem C08_mul_spec {r c k : ℕ} (A : Matrix (Fin r) (Fin c) ℝ) (B : Matrix (Fin c) (Fin k) ℝ)
    (i : Fin r) (j : Fin k) :
    Mat.mul (cm A : Mat (Fl F) r c) (cm B) i j = fin (∑ l, A i l * B l j) := by
  rw [cm_mul]; rfl

example : Mat.mulVec (cm !![1, -1; 2, 3] : Mat (Fl exact64) 2 2) (cv ![3, 8]) 1 = fin 30 := by
  rw [C08_mulVec_spec]; simp [Fin.sum_univ_two]; norm_num

/-- C08: distinct index pairs use distinct cells and every cell is inside the array (any shape). -/
theorem C08_index_bijective (rows cols : ℕ) :
    (∀ i j, i < rows → j < cols → matIdx cols i j < rows * cols) ∧
    (∀ i j i' j', j < cols → j' < cols → matIdx cols i j = matIdx cols i' j' → i = i' ∧ j = j') ∧
    (∀ k, k < rows * cols → ∃ i j, i < rows ∧ j < cols ∧ matIdx cols i j = k) := by
  refine ⟨fun i j hi hj => ?_, fun i j i' j' hj hj' h => ?_, fun k hk => ?_⟩
  · unfold matIdx
    calc i * cols + j < i * cols + cols := by omega
      _ = (i + 1) * cols := by ring
      _ ≤ rows * cols := Nat.mul_le_mul_right _ hi
  · unfold matIdx at h
    have h1 : (i * cols + j) / cols = i := by
      rw [mul_comm, Nat.mul_add_div (by omega), Nat.div_eq_of_lt hj, add_zero]
    have h2 : (i' * cols + j') / cols = i' := by
      rw [mul_comm, Nat.mul_add_div (by omega), Nat.div_eq_of_lt hj', add_zero]
    have : i = i' := by rw [← h1, ← h2, h]
    subst this
    exact ⟨rfl, by omega⟩
  · have hc : 0 < cols := Nat.pos_of_ne_zero (by rintro rfl; simp at hk)
    refine ⟨k / cols, k % cols, ?_, Nat.mod_lt _ hc, ?_⟩
    · rw [Nat.div_lt_iff_lt_mul hc]; exact hk
    · unfold matIdx; rw [mul_comm]; exact Nat.div_add_mod k cols

omit [F.Exact] in
/-- C08: reading and writing the flat storage refines a function of the index pair:
a read in range succeeds, a write is read back, and does not disturb any other entry. -/
theorem C08_flat_refines {rows cols : ℕ} (M : FlatMat (Fl F) rows cols) (x : Fl F)
    {i j i' j' : ℕ} (hi : i < rows) (hj : j < cols) (hi' : i' < rows) (hj' : j' < cols) :
    (∃ y, M.get i j = some y) ∧ (M.set i j x).get i j = some x ∧
    ((i, j) ≠ (i', j') → (M.set i j x).get i' j' = M.get i' j') ∧
    M.column j ⟨i, hi⟩ = M.get i j := by
  obtain ⟨hin, hinj, _⟩ := C08_index_bijective rows cols
  have h1 : matIdx cols i j < M.cells.length := by rw [M.len]; exact hin i j hi hj
  refine ⟨⟨M.cells[matIdx cols i j], by simp [FlatMat.get, h1]⟩, by simp [FlatMat.get, FlatMat.set, h1],
    fun hne => ?_, by simp [FlatMat.get, FlatMat.column, matIdx]⟩
  simp only [FlatMat.get, FlatMat.set]
  rw [List.getElem?_set_ne]
  intro h
  obtain ⟨rfl, rfl⟩ := hinj _ _ _ _ hj hj' h
  exact hne rfl

example : matIdx 3 1 2 = 5 := rfl

/-! ## C09 -/

/-- C09 outside the hack window: if `M(1,0)` is zero or larger in size than `eps²`, `solve` on an
invertible 2x2 matrix returns the solution. Missing: `0 < |M(1,0)| ≤ eps²` (see `C09_window_false`). -/
theorem C09_solve2_partial (M : Matrix (Fin 2) (Fin 2) ℝ) (b : Fin 2 → ℝ) (hdet : M.det ≠ 0)
    (hwin : M 1 0 = 0 ∨ F.eps * F.eps < |M 1 0|) :
    ∃ x : Fin 2 → ℝ, Mat.solve2 (cm M : Mat (Fl F) 2 2) (cv b) = cv x ∧ M *ᵥ x = b := by
  have he : 0 ≤ F.eps * F.eps := mul_self_nonneg _
  rw [det_fin_two] at hdet
  unfold Mat.solve2
  simp only [fl, decide_eq_true_eq]
  by_cases h0 : M 1 0 = 0
  · have h11 : M 1 1 ≠ 0 := by rintro h; apply hdet; rw [h, h0]; ring
    have h00 : M 0 0 ≠ 0 := by rintro h; apply hdet; rw [h, h0]; ring
    simp only [h0, abs_zero, he, if_true, div_fin _ h11, mul_fin, sub_fin, div_fin _ h00]
    refine ⟨_, cv_vec2 _ _, ?_⟩
    funext i
    fin_cases i <;> simp [mulVec, dotProduct, Fin.sum_univ_two, h0] <;> field_simp
    ring
  · have hw : ¬ |M 1 0| ≤ F.eps * F.eps := by
      rcases hwin with h | h
      · exact absurd h h0
      · exact not_le.mpr h
    have hden : M 0 1 - M 1 1 * (M 0 0 * (1 / M 1 0)) ≠ 0 := by
      intro h
      apply hdet
      field_simp at h
      linarith
    simp only [hw, if_false, fl, Nat.cast_one, div_fin _ h0, div_fin _ hden]
    refine ⟨_, cv_vec2 _ _, ?_⟩
    have hE : M 0 1 - M 1 1 * (M 0 0 * (1 / M 1 0)) = -(M 0 0 * M 1 1 - M 0 1 * M 1 0) / M 1 0 := by
      field_simp; ring
    rw [hE]
    obtain ⟨D, hD⟩ : ∃ D, D = M 0 0 * M 1 1 - M 0 1 * M 1 0 := ⟨_, rfl⟩
    rw [← hD] at hdet ⊢
    funext i
    fin_cases i <;> simp [mulVec, dotProduct, Fin.sum_univ_two] <;> field_simp
    · rw [hD]; ring
    · ring

example : ∃ x : Fin 2 → ℝ, Mat.solve2 (cm !![0, 1; 2, 3] : Mat (Fl exact64) 2 2) (cv ![5, 7]) = cv x ∧
    !![0, 1; 2, 3] *ᵥ x = ![5, 7] := by
  apply C09_solve2_partial
  · rw [det_fin_two]; simp
  · right
    have h1 : (exact64.eps : ℝ) < 1 := Fmt.Exact.eps_lt
    have h0 : (0 : ℝ) < exact64.eps := Fmt.Exact.eps_pos
    simp
    nlinarith

/-- C09 fails inside the hack window: for the invertible matrix `[[1,0],[eps²,1]]` and `b=(1,0)`
the returned vector is `(1,0)`, which does not solve the system. -/
theorem C09_window_false :
    (!![1, 0; F.eps * F.eps, 1] : Matrix (Fin 2) (Fin 2) ℝ).det = 1 ∧
    Mat.solve2 (cm !![1, 0; F.eps * F.eps, 1] : Mat (Fl F) 2 2) (cv ![1, 0]) = cv ![1, 0] ∧
    !![1, 0; F.eps * F.eps, 1] *ᵥ ![1, 0] ≠ ![(1 : ℝ), 0] := by
  have he : (0 : ℝ) < F.eps := Fmt.Exact.eps_pos
  refine ⟨by rw [det_fin_two]; simp, ?_, ?_⟩
  · unfold Mat.solve2
    simp only [fl, decide_eq_true_eq]
    simp only [Matrix.of_apply, Matrix.cons_val_one, Matrix.cons_val_zero, abs_of_nonneg (mul_self_nonneg F.eps),
      le_refl, if_true, Matrix.cons_val_fin_one, div_fin _ one_ne_zero, mul_fin, sub_fin]
    rw [cv_vec2]; norm_num
  · intro h
    have := congrFun h 1
    simp [mulVec, dotProduct, Fin.sum_univ_two] at this
    exact he.ne' this

/-! ## C10 -/

/-- The matrices on which the elimination in `solve` (3x3) never divides by zero and never reads an
unwritten cell. -/
def Solve3OK (M : Matrix (Fin 3) (Fin 3) ℝ) : Prop :=
  M 1 0 ≠ 0 ∧ M 2 0 ≠ 0 ∧
  ((M 0 0 ≠ 0 ∧ M 0 1 * M 2 0 ≠ M 2 1 * M 0 0) ∨
   (M 0 0 = 0 ∧ M 0 1 ≠ 0 ∧ M 2 1 * M 1 0 ≠ M 1 1 * M 2 0))


theorem solve3_correct (M : Matrix (Fin 3) (Fin 3) ℝ) (b : Fin 3 → ℝ) (hdet : M.det ≠ 0)
    (hok : Solve3OK M) :
    ∃ x : Fin 3 → ℝ, Mat.solve3 (cm M : Mat (Fl F) 3 3) (cv b) = some (cv x) ∧ M *ᵥ x = b := by
  obtain ⟨h10, h20, h | h⟩ := hok
  · obtain ⟨h00, h21⟩ := h
    rw [det_fin_three] at hdet
    have lift : ∀ x0 x1 x2 : ℝ, x0 = b 0 / M 0 0 - M 0 1 / M 0 0 * x1 - M 0 2 / M 0 0 * x2 →
        (M 0 1 / M 0 0 - M 1 1 / M 1 0) * x1 + (M 0 2 / M 0 0 - M 1 2 / M 1 0) * x2
          = b 0 / M 0 0 - b 1 / M 1 0 →
        (M 0 1 / M 0 0 - M 2 1 / M 2 0) * x1 + (M 0 2 / M 0 0 - M 2 2 / M 2 0) * x2
          = b 0 / M 0 0 - b 2 / M 2 0 → M *ᵥ ![x0, x1, x2] = b := by
      intro x0 x1 x2 e0 e1 e2
      have g0 : x0 + M 0 1 / M 0 0 * x1 + M 0 2 / M 0 0 * x2 = b 0 / M 0 0 := by rw [e0]; ring
      have g1 : x0 + M 1 1 / M 1 0 * x1 + M 1 2 / M 1 0 * x2 = b 1 / M 1 0 := by
        rw [e0]; linear_combination -e1
      have g2 : x0 + M 2 1 / M 2 0 * x1 + M 2 2 / M 2 0 * x2 = b 2 / M 2 0 := by
        rw [e0]; linear_combination -e2
      funext i
      fin_cases i <;> simp [mulVec, dotProduct, Fin.sum_univ_three]
      · field_simp at g0; linarith
      · field_simp at g1; linarith
      · field_simp at g2; linarith
    unfold Mat.solve3
    simp only [fl, Nat.cast_zero, ne, h00, h10, h20, decide_false, Bool.not_false, if_true, div_fin _ h00,
      div_fin _ h10, div_fin _ h20, sub_fin, Option.bind_eq_bind, Option.bind_some, Option.pure_def]
    have h21' : M 0 1 / M 0 0 - M 2 1 / M 2 0 ≠ 0 := by
      intro h; apply h21; field_simp at h; linarith
    have hdet' : (M 0 1 / M 0 0 - M 1 1 / M 1 0) * (M 0 2 / M 0 0 - M 2 2 / M 2 0)
        - (M 0 2 / M 0 0 - M 1 2 / M 1 0) * (M 0 1 / M 0 0 - M 2 1 / M 2 0) ≠ 0 := by
      intro h; apply hdet
      field_simp at h
      refine (mul_right_inj' h00).mp ?_
      linear_combination h
    generalize M 0 1 / M 0 0 - M 1 1 / M 1 0 = a11 at *
    generalize M 0 2 / M 0 0 - M 1 2 / M 1 0 = a12 at *
    generalize M 0 1 / M 0 0 - M 2 1 / M 2 0 = a21 at *
    generalize M 0 2 / M 0 0 - M 2 2 / M 2 0 = a22 at *
    generalize b 0 / M 0 0 - b 1 / M 1 0 = y1 at *
    generalize b 0 / M 0 0 - b 2 / M 2 0 = y2 at *
    by_cases h11 : a11 = 0
    · subst h11
      have h12 : a12 ≠ 0 := by rintro rfl; apply hdet'; ring
      simp only [decide_true, Bool.not_true, div_fin _ h12, div_fin _ h21', mul_fin, sub_fin, cv_vec3, Bool.false_eq_true,
        if_false]
      refine ⟨_, rfl, lift _ _ _ rfl ?_ ?_⟩
      · field_simp; ring
      · field_simp; ring
    · have hp : a12 / a11 - a22 / a21 ≠ 0 := by
        intro h; apply hdet'; field_simp at h; linarith
      simp only [h11, decide_false, Bool.not_false, div_fin _ h11, div_fin _ h21', mul_fin, sub_fin, cv_vec3,
        if_true, div_fin _ hp]
      refine ⟨_, rfl, lift _ _ _ rfl ?_ ?_⟩
      · field_simp; ring
      · have e : a12 / a11 - a22 / a21 = -(a11 * a22 - a12 * a21) / (a11 * a21) := by field_simp; ring
        rw [e]
        obtain ⟨D, hD⟩ : ∃ D, D = a11 * a22 - a12 * a21 := ⟨_, rfl⟩
        rw [← hD] at hdet' ⊢
        field_simp
        rw [hD]; ring
  · obtain ⟨h00, h01, h21⟩ := h
    rw [det_fin_three] at hdet
    have lift : ∀ x0 x1 x2 : ℝ, x0 = b 2 / M 2 0 - M 2 1 / M 2 0 * x1 - M 2 2 / M 2 0 * x2 →
        (M 2 1 / M 2 0 - M 1 1 / M 1 0) * x1 + (M 2 2 / M 2 0 - M 1 2 / M 1 0) * x2
          = b 2 / M 2 0 - b 1 / M 1 0 →
        x1 + M 0 2 / M 0 1 * x2 = b 0 / M 0 1 → M *ᵥ ![x0, x1, x2] = b := by
      intro x0 x1 x2 e0 e1 g0
      have g2 : x0 + M 2 1 / M 2 0 * x1 + M 2 2 / M 2 0 * x2 = b 2 / M 2 0 := by rw [e0]; ring
      have g1 : x0 + M 1 1 / M 1 0 * x1 + M 1 2 / M 1 0 * x2 = b 1 / M 1 0 := by
        rw [e0]; linear_combination -e1
      funext i
      fin_cases i <;> simp [mulVec, dotProduct, Fin.sum_univ_three, h00]
      · field_simp at g0; linarith
      · field_simp at g1; linarith
      · field_simp at g2; linarith
    unfold Mat.solve3
    simp only [fl, Nat.cast_zero, ne, h00, h10, h20, decide_false, decide_true, Bool.not_true, Bool.not_false,
      if_true, Bool.false_eq_true, if_false, div_fin _ h01,
      div_fin _ h10, div_fin _ h20, sub_fin, Option.bind_eq_bind, Option.bind_some, Option.pure_def]
    have h11 : M 2 1 / M 2 0 - M 1 1 / M 1 0 ≠ 0 := by
      intro h; apply h21; field_simp at h; linarith
    have hdet' : (M 2 2 / M 2 0 - M 1 2 / M 1 0) * M 0 1
        - M 0 2 * (M 2 1 / M 2 0 - M 1 1 / M 1 0) ≠ 0 := by
      intro h; apply hdet
      field_simp at h
      rw [h00]
      linear_combination -h
    generalize M 2 1 / M 2 0 - M 1 1 / M 1 0 = a11 at *
    generalize M 2 2 / M 2 0 - M 1 2 / M 1 0 = a12 at *
    generalize b 2 / M 2 0 - b 1 / M 1 0 = y1 at *
    have hp : a12 / a11 - M 0 2 / M 0 1 ≠ 0 := by
      intro h; apply hdet'; field_simp at h; linarith
    simp only [h11, decide_false, Bool.false_eq_true, if_false, div_fin _ h11, sub_fin, div_fin _ hp, mul_fin, cv_vec3]
    refine ⟨_, rfl, lift _ _ _ rfl ?_ ?_⟩
    · field_simp; ring
    · have e : a12 / a11 - M 0 2 / M 0 1 = (a12 * M 0 1 - M 0 2 * a11) / (a11 * M 0 1) := by field_simp
      rw [e]
      obtain ⟨D, hD⟩ : ∃ D, D = a12 * M 0 1 - M 0 2 * a11 := ⟨_, rfl⟩
      rw [← hD] at hdet' ⊢
      field_simp
      rw [hD]; ring


/-- Dividing twice by an exact zero poisons the quotient of the differences with NaN. -/
theorem div_zero_poison (p q r s : ℝ) (hq : q ≠ 0) :
    ((fin r : Fl F) - fin s / fin 0) / ((fin p : Fl F) - fin q / fin 0) = Fl.nan := by
  have h1 := fin_div_zero_cases (F := F) hq
  by_cases hs : s = 0
  · subst hs; simp
  · have h2 := fin_div_zero_cases (F := F) hs
    rcases h1 with h1 | h1 <;> rcases h2 with h2 | h2 <;> simp [h1, h2]

theorem solve3_fails (M : Matrix (Fin 3) (Fin 3) ℝ) (hdet : M.det ≠ 0) (hok : ¬ Solve3OK M) :
    ∃ b : Fin 3 → ℝ, ¬ ∃ x : Fin 3 → ℝ,
      Mat.solve3 (cm M : Mat (Fl F) 3 3) (cv b) = some (cv x) ∧ M *ᵥ x = b := by
  rw [det_fin_three] at hdet
  refine ⟨![1, 0, 0], ?_⟩
  rintro ⟨x, hx, hsol⟩
  unfold Mat.solve3 at hx
  by_cases h00 : M 0 0 = 0
  · by_cases h20 : M 2 0 = 0
    · simp [fl, ne, h00, h20] at hx
    by_cases h10 : M 1 0 = 0
    · simp [fl, ne, h00, h20, h10] at hx
    simp only [fl, Nat.cast_zero, ne, h00, h10, h20, decide_false, decide_true, Bool.not_true, Bool.not_false,
      if_true, Bool.false_eq_true, if_false,
      div_fin _ h10, div_fin _ h20, sub_fin, Option.bind_eq_bind, Option.bind_some, Option.pure_def,
      Option.some.injEq] at hx
    have hx2 := congrFun hx 2
    have hx1 := congrFun hx 1
    simp only [cv_apply, Matrix.cons_val, Matrix.cons_val_one, Matrix.cons_val_zero] at hx2 hx1
    by_cases h01 : M 0 1 = 0
    · have h02 : M 0 2 ≠ 0 := by
        rintro h; apply hdet; rw [h00, h01, h]; ring
      rw [h01] at hx2
      split_ifs at hx2 with h11
      · rw [div_zero_poison _ _ _ _ h02] at hx2; simp at hx2
      · rw [decide_eq_true_iff] at h11
        rw [div_fin _ h11, div_fin _ h11, div_zero_poison _ _ _ _ h02] at hx2; simp at hx2
    · have h11 : M 2 1 / M 2 0 - M 1 1 / M 1 0 = 0 := by
        by_contra h
        apply hok
        refine ⟨h10, h20, Or.inr ⟨h00, h01, ?_⟩⟩
        intro h'; apply h; field_simp; linarith
      simp only [h11, decide_true, if_true, div_fin _ h01, sub_fin] at hx2
      have s1 := congrFun hsol 1
      have s2 := congrFun hsol 2
      simp [mulVec, dotProduct, Fin.sum_univ_three] at s1 s2
      by_cases ha : M 2 2 / M 2 0 - M 1 2 / M 1 0 - M 0 2 / M 0 1 = 0
      · rw [ha] at hx2; exact fin_div_zero_ne _ _ hx2
      · rw [div_fin _ ha, fin_inj] at hx2
        have h12 : (M 2 2 / M 2 0 - M 1 2 / M 1 0) * x 2 = 0 := by
          field_simp at h11 ⊢
          linear_combination (M 1 0) * s2 - (M 2 0) * s1 - x 1 * h11
        have hne : M 2 2 / M 2 0 - M 1 2 / M 1 0 ≠ 0 := by
          intro h; apply hdet
          field_simp at h h11
          rw [h00]
          linear_combination (M 0 2) * h11 - (M 0 1) * h
        have hx20 : x 2 = 0 := by simpa [hne] using h12
        rw [hx20] at hx2
        simp at hx2
        rcases hx2 with h | h
        · exact h01 h
        · exact ha h
  · by_cases h10 : M 1 0 = 0
    · simp [fl, ne, h00, h10] at hx
    by_cases h20 : M 2 0 = 0
    · simp [fl, ne, h00, h20, h10, div_fin _ h10, div_fin _ h00] at hx
    have h21 : M 0 1 / M 0 0 - M 2 1 / M 2 0 = 0 := by
      by_contra h
      apply hok
      refine ⟨h10, h20, Or.inl ⟨h00, ?_⟩⟩
      intro h'; apply h; field_simp; linarith
    have hdet' : (M 0 1 / M 0 0 - M 1 1 / M 1 0) * (M 0 2 / M 0 0 - M 2 2 / M 2 0) ≠ 0 := by
      intro h; apply hdet
      field_simp at h h21
      refine (mul_right_inj' h00).mp ?_
      linear_combination h + (M 0 0 * M 1 2 - M 0 2 * M 1 0) * h21
    obtain ⟨h11, h22⟩ := mul_ne_zero_iff.mp hdet'
    simp only [fl, Nat.cast_zero, ne, h00, h10, h20, decide_false, Bool.not_false, if_true, div_fin _ h00,
      div_fin _ h10, div_fin _ h20, sub_fin, Option.bind_eq_bind, Option.bind_some, Option.pure_def, h11, h21,
      div_fin _ h11, Option.some.injEq] at hx
    have hx2 := congrFun hx 2
    simp only [cv_apply, Matrix.cons_val] at hx2
    rw [div_zero_poison _ _ _ _ h22] at hx2
    simp at hx2

/-- C10, exact characterisation: on an invertible 3x3 matrix `solve` returns the solution for every
right-hand side if and only if the matrix is in `Solve3OK`. -/
theorem C10_solve3_iff_partial (M : Matrix (Fin 3) (Fin 3) ℝ) (hdet : M.det ≠ 0) :
    (∀ b : Fin 3 → ℝ, ∃ x : Fin 3 → ℝ,
      Mat.solve3 (cm M : Mat (Fl F) 3 3) (cv b) = some (cv x) ∧ M *ᵥ x = b) ↔ Solve3OK M := by
  constructor
  · intro h
    by_contra hok
    obtain ⟨b, hb⟩ := solve3_fails (F := F) M hdet hok
    exact hb (h b)
  · intro hok b
    exact solve3_correct M b hdet hok

example : Solve3OK !![1, -1, 1; 1, 2, 1; 2, 1, 1] ∧
    (!![1, -1, 1; 1, 2, 1; 2, 1, 1] : Matrix (Fin 3) (Fin 3) ℝ).det ≠ 0 := by
  constructor
  · refine ⟨by simp, by simp, Or.inl ⟨by simp, ?_⟩⟩; simp; norm_num
  · rw [det_fin_three]; simp; norm_num

/-- C10 fails: for the identity matrix every call returns indeterminate values. -/
theorem C10_identity_false (b : Fin 3 → ℝ) :
    Mat.solve3 (cm 1 : Mat (Fl F) 3 3) (cv b) = none := by
  unfold Mat.solve3
  simp [fl, ne]

/-- C10 fails: on the invertible matrix `[[1,1,0],[1,2,1],[1,1,1]]` every component `v[2]` is NaN
(a division by an exact zero pivot). -/
theorem C10_pivot_false :
    (!![1, 1, 0; 1, 2, 1; 1, 1, 1] : Matrix (Fin 3) (Fin 3) ℝ).det = 1 ∧
    ∀ b : Fin 3 → ℝ, ∃ v, Mat.solve3 (cm !![1, 1, 0; 1, 2, 1; 1, 1, 1] : Mat (Fl F) 3 3) (cv b) = some v ∧
      v 2 = Fl.nan := by
  constructor
  · rw [det_fin_three]; simp; norm_num
  · intro b
    unfold Mat.solve3
    simp [fl, ne, div_fin _ (one_ne_zero), -ofNat_def, -div_one]
    norm_num
    rw [div_fin _ (by norm_num), div_fin _ (by norm_num), div_zero_poison _ _ _ _ (by norm_num)]
    simp

/-! ## C11 -/

/-- A loop whose body adds `s j` to a finite accumulator adds the sum. -/
theorem foldl_some_sum {m : ℕ} (G : Fin m → Option (Fl F) → Option (Fl F)) (s : Fin m → ℝ)
    (hG : ∀ j a, G j (some (fin a)) = some (fin (a + s j))) (a : ℝ) :
    Fin.foldl m (fun acc j => G j acc) (some (fin a)) = some (fin (a + ∑ j, s j)) := by
  induction m with
  | zero => simp
  | succ n ih =>
    rw [Fin.foldl_succ_last, ih (fun j => G j.castSucc) (fun j => s j.castSucc) (fun j => hG _), hG,
      Fin.sum_univ_castSucc, add_assoc]

omit [F.Exact] in
/-- A loop that propagates failure and starts from failure fails. -/
theorem foldl_none_none {m : ℕ} (G : Fin m → Option (Fl F) → Option (Fl F)) (hn : ∀ j, G j none = none) :
    Fin.foldl m (fun acc j => G j acc) none = none := by
  induction m with
  | zero => simp
  | succ n ih => rw [Fin.foldl_succ_last, ih (fun j => G j.castSucc) (fun j => hn _), hn]

omit [F.Exact] in
/-- A loop that propagates failure and fails at iteration `j0` fails. -/
theorem foldl_none {m : ℕ} (G : Fin m → Option (Fl F) → Option (Fl F)) (hn : ∀ j, G j none = none)
    (j0 : Fin m) (h0 : ∀ acc, G j0 acc = none) (acc : Option (Fl F)) :
    Fin.foldl m (fun acc j => G j acc) acc = none := by
  induction m with
  | zero => exact j0.elim0
  | succ n ih =>
    rw [Fin.foldl_succ_last]
    induction j0 using Fin.lastCases with
    | last => rw [h0]
    | cast j => rw [ih (fun j => G j.castSucc) (fun j => hn _) j h0, hn]

/-- C11 for tensors with `rows = cols` (the only shape the library instantiates): component `i` of the
contraction is `Σⱼₖ T(i,j,k)·xⱼ·yₖ`, and no read is out of bounds. -/
theorem C11_contract_square {p n : ℕ} (T : Tensor (Fl F) p n n) (t : Fin p → Fin n → Fin n → ℝ)
    (hT : ∀ (i : Fin p) (j k : Fin n), T.get i j k = some (fin (t i j k))) (x y : Fin n → ℝ) (i : Fin p) :
    T.contract (cv x) (cv y) i = some (fin (∑ j, ∑ k, t i j k * x j * y k)) := by
  unfold Tensor.contract
  simp only [cv_apply]
  have hh : ∀ j k : Fin n, T.cells[(i : ℕ) * n * n + (j : ℕ) * n + (k : ℕ)]? = some (fin (t i j k)) :=
    fun j k => hT i j k
  rw [ofNat_zero]
  refine (foldl_some_sum _ (fun j => ∑ k, t i j k * x j * y k) (fun j a => ?_) 0).trans (by rw [zero_add])
  refine foldl_some_sum _ (fun k => t i j k * x j * y k) (fun k a => ?_) a
  simp [hh]

omit [F.Exact] in
/-- C11: every element read through `operator()(i,j,k)` is inside the array, a write is read back and
leaves the other entries alone (any shape). -/
theorem C11_index {p r c : ℕ} (T : Tensor (Fl F) p r c) (v : Fl F) {i j k i' j' k' : ℕ} (hi : i < p) (hj : j < r)
    (hk : k < c) (hi' : i' < p) (hj' : j' < r) (hk' : k' < c) :
    (∃ z, T.get i j k = some z) ∧ (T.set i j k v).get i j k = some v ∧
    ((i, j, k) ≠ (i', j', k') → (T.set i j k v).get i' j' k' = T.get i' j' k') := by
  have key : ∀ i j k, i * r * c + j * c + k = matIdx c (matIdx r i j) k := by
    intro i j k; unfold matIdx; ring
  obtain ⟨hin, hinj, _⟩ := C08_index_bijective p r
  obtain ⟨hin', hinj', _⟩ := C08_index_bijective (p * r) c
  have h1 : i * r * c + j * c + k < T.cells.length := by
    rw [T.len, key]
    have := hin' _ k (hin i j hi hj) hk
    calc _ < p * r * c := this
      _ = r * c * p := by ring
  refine ⟨⟨T.cells[i * r * c + j * c + k], by simp [Tensor.get, h1]⟩,
    by simp [Tensor.get, Tensor.set, h1], fun hne => ?_⟩
  simp only [Tensor.get, Tensor.set]
  rw [List.getElem?_set_ne]
  rw [key, key]
  intro h
  obtain ⟨h2, rfl⟩ := hinj' _ _ _ _ hk hk' h
  obtain ⟨rfl, rfl⟩ := hinj _ _ _ _ hj hj' h2
  exact hne rfl

/-- The 3x2x2 tensor with the entries 1, ..., 12. -/
noncomputable def tensor12 : Tensor (Fl exact64) 3 2 2 := ⟨(List.range 12).map (fun n => fin ((n : ℝ) + 1)), by simp⟩

example : tensor12.contract (cv ![1, 2]) (cv ![3, 4]) 1 = some (fin (5*3 + 6*4 + 7*2*3 + 8*2*4)) := by
  have hT : ∀ (i : Fin 3) (j k : Fin 2), tensor12.get i j k = some (fin (4 * (i:ℝ) + 2 * (j:ℝ) + (k:ℝ) + 1)) := by
    intro i j k
    fin_cases i <;> fin_cases j <;> fin_cases k <;> simp [tensor12, Tensor.get, List.range_succ] <;> norm_num
  rw [C11_contract_square tensor12 _ hT]
  simp [Fin.sum_univ_two]; norm_num

omit [F.Exact] in
/-- C11 fails for `cols > rows ≥ 1`: the contraction of the last panel reads outside the array. -/
theorem C11_oob_false {p r c : ℕ} (hp : 0 < p) (hr : 0 < r) (hrc : r < c) (T : Tensor (Fl F) p r c)
    (x : Vec (Fl F) c) (y : Vec (Fl F) r) : T.contract x y ⟨p - 1, by omega⟩ = none := by
  unfold Tensor.contract
  refine foldl_none (fun (j : Fin c) acc => Fin.foldl r (fun acc k => do
      let z ← acc
      let t ← T.cells[(p - 1) * r * c + j * c + k]?
      return z + t * x j * y k) acc) (fun j => ?_) ⟨c - 1, by omega⟩ (fun acc => ?_) _
  · exact foldl_none_none (fun k acc => do
      let z ← acc
      let t ← T.cells[(p - 1) * r * c + j * c + k]?
      return z + t * x j * y k) (fun k => rfl)
  · refine foldl_none (fun k acc => do
      let z ← acc
      let t ← T.cells[(p - 1) * r * c + (c - 1) * c + k]?
      return z + t * x ⟨c - 1, by omega⟩ * y k) (fun k => rfl) ⟨r - 1, by omega⟩ (fun acc => ?_) _
    have : T.cells[(p - 1) * r * c + (c - 1) * c + (r - 1)]? = none := by
      rw [List.getElem?_eq_none_iff, T.len]
      obtain ⟨q, rfl⟩ : ∃ q, p = q + 1 := ⟨p - 1, by omega⟩
      obtain ⟨s, rfl⟩ : ∃ s, r = s + 1 := ⟨r - 1, by omega⟩
      obtain ⟨d, rfl⟩ : ∃ d, c = s + 2 + d := ⟨c - (s + 2), by omega⟩
      simp only [Nat.add_sub_cancel, show s + 2 + d - 1 = s + 1 + d by omega]
      nlinarith [Nat.zero_le (q * (s + 1) * (s + 2 + d)), Nat.zero_le (s * d), Nat.zero_le (d * d)]
    cases acc <;> simp [this]

example (T : Tensor (Fl exact64) 3 2 3) (x : Vec (Fl exact64) 3) (y : Vec (Fl exact64) 2) :
    T.contract x y 2 = none := C11_oob_false (by norm_num) (by norm_num) (by norm_num) T x y

/-- C11 fails for `rows > cols`: the rectangular tensor of shape 1x3x2 whose only nonzero entry is
`T(0,0,1) = 1`, contracted with `x = (0,1)` and `y = (1,0,0)`, gives 0 instead of 1. -/
theorem C11_rect_false : ∃ T : Tensor (Fl F) 1 3 2, T.get 0 0 1 = some (fin 1) ∧
    (∀ j k, j < 3 → k < 2 → (j, k) ≠ (0, 1) → T.get 0 j k = some (fin 0)) ∧
    T.contract (cv ![0, 1]) (cv ![1, 0, 0]) 0 = some (fin 0) := by
  refine ⟨⟨[fin 0, fin 1, fin 0, fin 0, fin 0, fin 0], rfl⟩, rfl, ?_, ?_⟩
  · intro j k hj hk hne
    interval_cases j <;> interval_cases k <;> first | rfl | simp at hne
  · simp [Tensor.contract, Fin.foldl_succ, cv_apply]

end DRT
