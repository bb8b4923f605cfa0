import Verif.Lemmas.QuadError
import Verif.Model.Sphere
import Mathlib.Algebra.BigOperators.Field

/-!
# Rounding errors (C100–C104)

`F.Standard`: any rounding direction, at least 9 bits, with underflow and overflow (binary32 and binary64 are instances).
`F.Free`: the same without underflow and overflow (`unbounded p`).
-/

namespace DRT
open Scalar Fl Vec

/-! ## C100: differences of products survive cancellation -/

section C100
variable {F : Fmt} [F.Standard]

/-- C100. If the result is finite then its error is a few roundings of the *result*, plus second-order terms in the
products: cancellation of the products is harmless. The naive formula has `eps * |c d|` in place of the second term. -/
theorem C100_difference_of_products {a b c d x : ℝ}
    (h : differenceOfProducts (fin a) (fin b) (fin c) (fin d) = (fin x : Fl F)) :
    |x - (a * b - c * d)| ≤
      3 * F.eps * |a * b - c * d| + 3 * F.eps ^ 2 * |c * d| + 4 * (F.eps * F.tiny) :=
  differenceOfProducts_error h

/-- C100 for `determinant` of a 2x2 matrix. -/
theorem C100_determinant {m : Fin 2 → Fin 2 → ℝ} {x : ℝ}
    (h : Mat.det2 (fun i j => fin (m i j)) = (fin x : Fl F)) :
    |x - (m 0 0 * m 1 1 - m 0 1 * m 1 0)| ≤
      3 * F.eps * |m 0 0 * m 1 1 - m 0 1 * m 1 0| + 3 * F.eps ^ 2 * |m 0 1 * m 1 0| + 4 * (F.eps * F.tiny) :=
  differenceOfProducts_error h

/-- C100 for `cross`: every component of the product of nearly parallel vectors. -/
theorem C100_cross {u v w : Fin 3 → ℝ}
    (h : Vec.cross (fun i => fin (u i)) (fun i => fin (v i)) = fun i => (fin (w i) : Fl F)) (i : Fin 3) :
    |w i - (u (i + 1) * v (i + 2) - u (i + 2) * v (i + 1))| ≤
      3 * F.eps * |u (i + 1) * v (i + 2) - u (i + 2) * v (i + 1)| + 3 * F.eps ^ 2 * |u (i + 2) * v (i + 1)|
        + 4 * (F.eps * F.tiny) := by
  have hi := congrFun h i
  fin_cases i <;> exact differenceOfProducts_error hi

/-- C100 for `discriminant`; `h4` says that `4 a` is a number of the format. -/
theorem C100_discriminant {a b c x : ℝ} (h4 : rnd F (4 * a) = fin (4 * a))
    (h : discriminant (fin a) (fin b) (fin c) = (fin x : Fl F)) :
    |x - (b * b - 4 * a * c)| ≤
      3 * F.eps * |b * b - 4 * a * c| + 3 * F.eps ^ 2 * |4 * a * c| + 4 * (F.eps * F.tiny) :=
  discriminant_error h4 h

/-- The hypothesis `h4` holds for every `double` whose quadruple does not overflow. -/
theorem four_binary64 {a : ℝ} (h : rnd binary64 a = fin a) (hb : |4 * a| < 2 ^ (1024 : ℤ)) :
    rnd binary64 (4 * a) = fin (4 * a) := ieee_four h (by simpa using hb)

/-- In `double`: `3*5 - 2*7`. -/
example : differenceOfProducts (fin 3) (fin 5) (fin 2) (fin 7) = (fin 1 : Fl binary64) := by
  have h14 : rnd binary64 (2 * 7) = fin 14 := by
    rw [show (2 : ℝ) * 7 = ((14 : ℕ) : ℝ) by norm_num, Fmt.Rounding.small 14 (by norm_num)]; norm_num
  have h0 : rnd binary64 (-2 * 7 + 14) = fin 0 := by
    rw [show (-2 : ℝ) * 7 + 14 = 0 by norm_num, rnd_zero]
  have h1 : rnd binary64 (3 * 5 + -14) = fin 1 := by
    rw [show (3 : ℝ) * 5 + -14 = 1 by norm_num, rnd_one]
  have h2 : rnd binary64 (1 + 0) = fin 1 := by rw [add_zero, rnd_one]
  unfold differenceOfProducts
  simp only [show (fin 2 : Fl binary64) * fin 7 = fin 14 from h14,
    show Scalar.fma (-fin 2 : Fl binary64) (fin 7) (fin 14) = fin 0 from h0,
    show Scalar.fma (fin 3 : Fl binary64) (fin 5) (-fin 14) = fin 1 from h1]
  exact h2

/-- Without overflow every result is finite, so the hypothesis of `C100_difference_of_products` is met by all inputs. -/
example (a b c d : ℝ) : ∃ x : ℝ, differenceOfProducts (fin a) (fin b) (fin c) (fin d) = (fin x : Fl (unbounded 53)) := by
  obtain ⟨w, h1⟩ : ∃ w : ℝ, (fin c : Fl (unbounded 53)) * fin d = fin w :=
    Fmt.NoOverflow.finite (F := unbounded 53) (c * d)
  obtain ⟨y, h2⟩ : ∃ y : ℝ, Scalar.fma (-(fin c)) (fin d) (fin w : Fl (unbounded 53)) = fin y :=
    Fmt.NoOverflow.finite (F := unbounded 53) (-c * d + w)
  obtain ⟨z, h3⟩ : ∃ z : ℝ, Scalar.fma (fin a) (fin b) (-(fin w : Fl (unbounded 53))) = fin z :=
    Fmt.NoOverflow.finite (F := unbounded 53) (a * b + -w)
  unfold differenceOfProducts
  simp only [h1, h2, h3]
  exact Fmt.NoOverflow.finite (F := unbounded 53) (z + y)

end C100

/-! ## C101: dot products and matrix products -/

section C101
variable {F : Fmt} [F.Standard]

/-- C101. A finite `dot(u, v)` differs from the exact one by at most `n+1` roundings of the sum of the magnitudes,
plus the underflow of the terms; any dimension. -/
theorem C101_dot {n : ℕ} (u v : Fin n → ℝ) {x : ℝ}
    (h : dot (fun i => fin (u i)) (fun i => fin (v i)) = (fin x : Fl F)) :
    |x - ∑ i, u i * v i| ≤
      ((1 + F.eps) ^ (n + 1) - 1) * ∑ i, |u i * v i| + 3 * n * (1 + F.eps) ^ n * (F.eps * F.tiny) :=
  loopSum_error u v h

/-- C101 for `squared_norm`: the error is relative to the result itself. -/
theorem C101_squared_norm {n : ℕ} (v : Fin n → ℝ) {x : ℝ}
    (h : squaredNorm (fun i => fin (v i)) = (fin x : Fl F)) :
    |x - ∑ i, v i ^ 2| ≤
      ((1 + F.eps) ^ (n + 1) - 1) * ∑ i, v i ^ 2 + 3 * n * (1 + F.eps) ^ n * (F.eps * F.tiny) := by
  have := loopSum_error v v h
  simpa only [← sq, abs_pow, sq_abs] using this

/-- C101 for a matrix times a vector. -/
theorem C101_mul_vec {n m : ℕ} (A : Fin n → Fin m → ℝ) (v : Fin m → ℝ) {w : Fin n → ℝ}
    (h : Mat.mulVec (fun i j => fin (A i j)) (fun i => fin (v i)) = fun i => (fin (w i) : Fl F)) (i : Fin n) :
    |w i - ∑ j, A i j * v j| ≤
      ((1 + F.eps) ^ (m + 1) - 1) * ∑ j, |A i j * v j| + 3 * m * (1 + F.eps) ^ m * (F.eps * F.tiny) :=
  loopSum_error (A i) v (congrFun h i)

/-- C101 for a matrix times a matrix. -/
theorem C101_mul {n m k : ℕ} (A : Fin n → Fin m → ℝ) (B : Fin m → Fin k → ℝ) {C : Fin n → Fin k → ℝ}
    (h : Mat.mul (fun i j => fin (A i j)) (fun i j => fin (B i j)) = fun i j => (fin (C i j) : Fl F))
    (i : Fin n) (j : Fin k) :
    |C i j - ∑ l, A i l * B l j| ≤
      ((1 + F.eps) ^ (m + 1) - 1) * ∑ l, |A i l * B l j| + 3 * m * (1 + F.eps) ^ m * (F.eps * F.tiny) :=
  loopSum_error (A i) (fun l => B l j) (congrFun (congrFun h i) j)

/-- In `double`: `(1,2)·(3,4)`. -/
example : dot (fun i => fin ((![1, 2] : Fin 2 → ℝ) i)) (fun i => fin ((![3, 4] : Fin 2 → ℝ) i)) =
    (fin 11 : Fl binary64) := by
  have h3 : rnd binary64 (1 * 3) = fin 3 := by
    rw [show (1 : ℝ) * 3 = ((3 : ℕ) : ℝ) by norm_num, Fmt.Rounding.small 3 (by norm_num)]; norm_num
  have h8 : rnd binary64 (2 * 4) = fin 8 := by
    rw [show (2 : ℝ) * 4 = ((8 : ℕ) : ℝ) by norm_num, Fmt.Rounding.small 8 (by norm_num)]; norm_num
  have h03 : rnd binary64 (0 + 3) = fin 3 := by
    rw [show (0 : ℝ) + 3 = ((3 : ℕ) : ℝ) by norm_num, Fmt.Rounding.small 3 (by norm_num)]; norm_num
  have h11 : rnd binary64 (3 + 8) = fin 11 := by
    rw [show (3 : ℝ) + 8 = ((11 : ℕ) : ℝ) by norm_num, Fmt.Rounding.small 11 (by norm_num)]; norm_num
  unfold dot
  rw [loopSum_succ, loopSum_succ]
  show ((0 : Fl binary64) + fin 1 * fin 3) + fin 2 * fin 4 = _
  rw [rzero, show (fin 1 : Fl binary64) * fin 3 = fin 3 from h3, show (fin 2 : Fl binary64) * fin 4 = fin 8 from h8,
    show (fin 0 : Fl binary64) + fin 3 = fin 3 from h03]
  exact h11

end C101

/-! ## C102: normalize -/

section C102
variable {F : Fmt} [F.Free]

/-- Sums of squares keep both bounds for any number of terms. -/
theorem sum_sq_bounds {n : ℕ} (v : Fin n → ℝ) :
    ∃ S : ℝ, squaredNorm (fun i => fin (v i)) = (fin S : Fl F) ∧
      (1 - F.eps) ^ (n + 1) * ∑ i, v i ^ 2 ≤ S ∧ S ≤ (1 + F.eps) ^ (n + 1) * ∑ i, v i ^ 2 := by
  have e0 := eps_pos' (F := F)
  have e1 := eps_le' (F := F)
  unfold squaredNorm
  induction n with
  | zero => exact ⟨0, by simp only [loopSum, Fin.foldl_zero, rzero], by simp, by simp⟩
  | succ k ih =>
    obtain ⟨S, hS, h1, h2⟩ := ih fun i => v i.castSucc
    obtain ⟨δ, hδ, hm⟩ := mul_rel (F := F) (v (Fin.last k)) (v (Fin.last k))
    obtain ⟨δ', hδ', ha⟩ := add_rel (F := F) S (v (Fin.last k) * v (Fin.last k) * (1 + δ))
    refine ⟨_, by rw [loopSum_succ, hS, hm, ha], ?_, ?_⟩
    all_goals
      rw [Fin.sum_univ_castSucc, ← sq]
      have hT : 0 ≤ ∑ i : Fin k, v i.castSucc ^ 2 := Finset.sum_nonneg fun i _ => sq_nonneg _
      have hz := sq_nonneg (v (Fin.last k))
      generalize ∑ i : Fin k, v i.castSucc ^ 2 = T at *
      generalize v (Fin.last k) ^ 2 = z at *
      obtain ⟨d1, d2⟩ := abs_le.mp hδ
      obtain ⟨d3, d4⟩ := abs_le.mp hδ'
      generalize F.eps = ε at *
      have p1 : (1 - ε) ^ (k + 1) ≤ 1 - ε := by
        rw [pow_succ]; nlinarith [pow_le_one₀ (n := k) (by linarith : 0 ≤ 1 - ε) (by linarith)]
      have p2 : 1 + ε ≤ (1 + ε) ^ (k + 1) := by
        rw [pow_succ]; nlinarith [one_le_pow₀ (n := k) (by linarith : 1 ≤ 1 + ε)]
      have p3 : 0 ≤ (1 - ε) ^ (k + 1) := pow_nonneg (by linarith) _
      rw [pow_succ _ (k + 1)]
      generalize (1 - ε) ^ (k + 1) = P at *
      generalize (1 + ε) ^ (k + 1) = Q at *
    · have q1 : P * (T + z) ≤ S + z * (1 + δ) := by nlinarith
      have q0 : 0 ≤ P * (T + z) := by positivity
      calc P * (1 - ε) * (T + z) = P * (T + z) * (1 - ε) := by ring
        _ ≤ (S + z * (1 + δ)) * (1 + δ') := mul_le_mul q1 (by linarith) (by linarith) (by linarith)
    · have q1 : S + z * (1 + δ) ≤ Q * (T + z) := by nlinarith
      have q0 : 0 ≤ Q * (T + z) := mul_nonneg (by linarith) (by linarith)
      calc (S + z * (1 + δ)) * (1 + δ') ≤ Q * (T + z) * (1 + ε) :=
            mul_le_mul q1 (by linarith) (by linarith) q0
        _ = Q * (1 + ε) * (T + z) := by ring

/-- C102. `normalize` of a nonzero vector: every component has the right sign and a relative error of about
`(n+5)/2` roundings, in any dimension. -/
theorem C102_normalize {n m : ℕ} (hm : n + 3 ≤ 2 * m) (v : Fin n → ℝ) (hv : v ≠ 0) :
    ∃ w : Fin n → ℝ, Vec.normalize (fun i => fin (v i)) = (fun i => (fin (w i) : Fl F)) ∧
      ∀ i, ∃ ρ : ℝ, w i = ρ * (v i / Real.sqrt (∑ j, v j ^ 2)) ∧
        (1 - F.eps) / (1 + F.eps) ^ m ≤ ρ ∧ ρ ≤ (1 + F.eps) / (1 - F.eps) ^ m := by
  have e0 := eps_pos' (F := F)
  have e1 := eps_le' (F := F)
  obtain ⟨S, hS, h1, h2⟩ := sum_sq_bounds (F := F) v
  have hN : 0 < ∑ j, v j ^ 2 := by
    obtain ⟨j, hj⟩ := Function.ne_iff.mp hv
    have hj' : v j ≠ 0 := hj
    exact Finset.sum_pos' (fun i _ => sq_nonneg _) ⟨j, Finset.mem_univ _, by positivity⟩
  have hS0 : 0 < S := lt_of_lt_of_le (mul_pos (pow_pos (by linarith) _) hN) h1
  obtain ⟨δ, hδ, hs⟩ := sqrt_rel (F := F) hS0.le
  obtain ⟨d1, d2⟩ := abs_le.mp hδ
  generalize ∑ j, v j ^ 2 = N at *
  obtain ⟨t, ht⟩ : ∃ t : ℝ, t = Real.sqrt S * (1 + δ) := ⟨_, rfl⟩
  have ht0 : 0 < t := by rw [ht]; exact mul_pos (Real.sqrt_pos.mpr hS0) (by linarith)
  have hr : 0 < Real.sqrt N := Real.sqrt_pos.mpr hN
  have ht2 : t ^ 2 = S * (1 + δ) ^ 2 := by rw [ht, mul_pow, Real.sq_sqrt hS0.le]
  have p1 : (1 - F.eps) ^ (2 * m) ≤ (1 - F.eps) ^ (n + 1) * (1 - F.eps) ^ 2 := by
    rw [← pow_add]; exact pow_le_pow_of_le_one (by linarith) (by linarith) hm
  have p2 : (1 + F.eps) ^ (n + 1) * (1 + F.eps) ^ 2 ≤ (1 + F.eps) ^ (2 * m) := by
    rw [← pow_add]; exact pow_le_pow_right₀ (by linarith) hm
  have t1 : (1 - F.eps) ^ m * Real.sqrt N ≤ t := by
    refine le_of_sq_le_sq ?_ ht0.le
    rw [ht2, mul_pow, Real.sq_sqrt hN.le, ← pow_mul, mul_comm m 2]
    calc _ ≤ (1 - F.eps) ^ (n + 1) * (1 - F.eps) ^ 2 * N := mul_le_mul_of_nonneg_right p1 hN.le
      _ = (1 - F.eps) ^ (n + 1) * N * (1 - F.eps) ^ 2 := by ring
      _ ≤ S * (1 + δ) ^ 2 := mul_le_mul h1 (pow_le_pow_left₀ (by linarith) (by linarith) 2) (by positivity) hS0.le
  have t2 : t ≤ (1 + F.eps) ^ m * Real.sqrt N := by
    refine le_of_sq_le_sq ?_ (by positivity)
    rw [ht2, mul_pow, Real.sq_sqrt hN.le, ← pow_mul, mul_comm m 2]
    calc _ ≤ (1 + F.eps) ^ (n + 1) * N * (1 + F.eps) ^ 2 :=
          mul_le_mul h2 (pow_le_pow_left₀ (by linarith) (by linarith) 2) (by positivity) (by positivity)
      _ = (1 + F.eps) ^ (n + 1) * (1 + F.eps) ^ 2 * N := by ring
      _ ≤ _ := mul_le_mul_of_nonneg_right p2 hN.le
  choose d hd hdiv using fun i => div_rel (F := F) (v i) ht0.ne'
  refine ⟨fun i => v i / t * (1 + d i), ?_, fun i => ⟨Real.sqrt N / t * (1 + d i), by field_simp, ?_, ?_⟩⟩
  · funext i
    simp only [Vec.normalize, Vec.norm, hS, hs, ← ht, hdiv]
  all_goals
    obtain ⟨d3, d4⟩ := abs_le.mp (hd i)
  · calc (1 - F.eps) / (1 + F.eps) ^ m = 1 / (1 + F.eps) ^ m * (1 - F.eps) := by ring
      _ ≤ Real.sqrt N / t * (1 + d i) := by
        refine mul_le_mul ?_ (by linarith) (by linarith) (by positivity)
        rw [div_le_div_iff₀ (by positivity) ht0]; linarith
  · have hp : 0 < (1 - F.eps) ^ m := pow_pos (by linarith) m
    calc Real.sqrt N / t * (1 + d i) ≤ 1 / (1 - F.eps) ^ m * (1 + F.eps) := by
          refine mul_le_mul ?_ (by linarith) (by linarith) (by positivity)
          rw [div_le_div_iff₀ ht0 hp]; linarith
      _ = _ := by ring

/-- C102 in space: relative error of each component below five machine epsilons, squared length within nine. -/
theorem C102_normalize3 (v : Fin 3 → ℝ) (hv : v ≠ 0) :
    ∃ w : Fin 3 → ℝ, Vec.normalize (fun i => fin (v i)) = (fun i => (fin (w i) : Fl F)) ∧
      (∀ i, |w i - v i / Real.sqrt (∑ j, v j ^ 2)| ≤ 5 * F.eps * |v i / Real.sqrt (∑ j, v j ^ 2)|) ∧
      |∑ i, w i ^ 2 - 1| ≤ 9 * F.eps := by
  have e0 := eps_pos' (F := F)
  have e1 := eps_le' (F := F)
  obtain ⟨w, hw, h⟩ := C102_normalize (F := F) (n := 3) (m := 3) (by norm_num) v hv
  have hN : 0 < ∑ j, v j ^ 2 := by
    obtain ⟨j, hj⟩ := Function.ne_iff.mp hv
    have hj' : v j ≠ 0 := hj
    exact Finset.sum_pos' (fun i _ => sq_nonneg _) ⟨j, Finset.mem_univ _, by positivity⟩
  choose ρ h1 h2 h3 using h
  have l1 : ∀ i, 1 - 4.1 * F.eps ≤ ρ i := fun i => by
    refine le_trans ?_ (h2 i)
    rw [le_div_iff₀ (by positivity)]
    generalize F.eps = ε at *
    nlinarith [mul_pos e0 e0, mul_pos (mul_pos e0 e0) e0, mul_pos (mul_pos e0 e0) (mul_pos e0 e0)]
  have l2 : ∀ i, ρ i ≤ 1 + 4.1 * F.eps := fun i => by
    refine (h3 i).trans ?_
    rw [div_le_iff₀ (pow_pos (by linarith) 3)]
    generalize F.eps = ε at *
    have : 1 - 3 * ε ≤ (1 - ε) ^ 3 := by nlinarith [mul_pos e0 e0]
    have h4 : (1 + 4.1 * ε) * (1 - 3 * ε) ≤ (1 + 4.1 * ε) * (1 - ε) ^ 3 :=
      mul_le_mul_of_nonneg_left this (by linarith)
    nlinarith
  refine ⟨w, hw, fun i => ?_, ?_⟩
  · rw [h1 i]
    generalize v i / Real.sqrt (∑ j, v j ^ 2) = z
    rw [show ρ i * z - z = (ρ i - 1) * z by ring, abs_mul]
    refine mul_le_mul_of_nonneg_right (abs_le.mpr ⟨?_, ?_⟩) (abs_nonneg _)
    · linarith [l1 i]
    · linarith [l2 i]
  · have hu : ∑ i, (v i / Real.sqrt (∑ j, v j ^ 2)) ^ 2 = 1 := by
      simp only [div_pow, Real.sq_sqrt hN.le]
      rw [← Finset.sum_div, div_self hN.ne']
    have e : ∑ i, w i ^ 2 - 1 = ∑ i, (ρ i ^ 2 - 1) * (v i / Real.sqrt (∑ j, v j ^ 2)) ^ 2 := by
      have hc : ∀ i, w i ^ 2 = (ρ i ^ 2 - 1) * (v i / Real.sqrt (∑ j, v j ^ 2)) ^ 2
          + (v i / Real.sqrt (∑ j, v j ^ 2)) ^ 2 := fun i => by rw [h1 i]; ring
      rw [Finset.sum_congr rfl fun i _ => hc i, Finset.sum_add_distrib, hu, add_sub_cancel_right]
    rw [e]
    refine (Finset.abs_sum_le_sum_abs _ _).trans ?_
    calc _ ≤ ∑ i, 9 * F.eps * (v i / Real.sqrt (∑ j, v j ^ 2)) ^ 2 := by
          refine Finset.sum_le_sum fun i _ => ?_
          rw [abs_mul, abs_of_nonneg (sq_nonneg (v i / _))]
          refine mul_le_mul_of_nonneg_right ?_ (sq_nonneg _)
          have a1 := l1 i
          have a2 := l2 i
          rw [abs_le]
          generalize F.eps = ε at *
          constructor <;> nlinarith
      _ = 9 * F.eps := by rw [← Finset.mul_sum, hu, mul_one]

/-- A vector and a format that meet the hypotheses. -/
example : ∃ w : Fin 3 → ℝ, Vec.normalize (fun i => fin ((![1, 2, 3] : Fin 3 → ℝ) i)) =
    (fun i => (fin (w i) : Fl (unbounded 53))) ∧ |∑ i, w i ^ 2 - 1| ≤ 9 * 2 ^ (-52 : ℤ) := by
  obtain ⟨w, h, -, h'⟩ := C102_normalize3 (F := unbounded 53) ![1, 2, 3] (by
    intro h; have := congrFun h 0; simp at this)
  exact ⟨w, h, by simpa [unbounded] using h'⟩

end C102

/-! ## C103: quadratic_roots is backward stable -/

section C103
variable {F : Fmt} [F.Free]

theorem tiny_zero : (Scalar.tiny : Fl F) = fin 0 := by
  show fin F.tiny = fin 0
  rw [Fmt.Free.tiny_eq]

theorem discriminant_close {a b c d : ℝ} (ha : rnd F a = fin a)
    (h : discriminant (fin a) (fin b) (fin c) = (fin d : Fl F)) :
    |d - (b * b - 4 * a * c)| ≤ 3 * F.eps * |b * b - 4 * a * c| + 3 * F.eps ^ 2 * |4 * a * c| := by
  have := discriminant_error (Fmt.Free.four ha) h
  rwa [Fmt.Free.tiny_eq, mul_zero, mul_zero, add_zero] at this

theorem quadratic_general {a b c d : ℝ} (ha : a ≠ 0) (hb : b ≠ 0)
    (hd : discriminant (fin a) (fin b) (fin c) = (fin d : Fl F)) (hd0 : d < 0) :
    quadraticRoots (fin a) (fin b) (fin c) = ([] : List (Fl F)) := by
  have g1 : ¬ |a| ≤ 0 := fun h => ha (abs_nonpos_iff.mp h)
  have g2 : ¬ |b| ≤ 0 := fun h => hb (abs_nonpos_iff.mp h)
  unfold quadraticRoots
  rw [tiny_zero, abs_fin, abs_fin, le_fin, le_fin, decide_eq_false g1, decide_eq_false g2, hd, rzero]
  simp only [Bool.false_eq_true, if_false, lt_fin (a := d), decide_eq_true hd0, if_true]

theorem quadratic_linear {b c : ℝ} : quadraticRoots (fin 0) (fin b) (fin c) =
    if b = 0 ∧ c ≠ 0 then ([] : List (Fl F)) else [-(fin c) / fin b, -(fin c) / fin b] := by
  unfold quadraticRoots
  rw [tiny_zero, abs_fin, abs_zero, le_fin, decide_eq_true (le_refl _), rzero]
  by_cases h1 : b = 0 <;> by_cases h2 : c = 0 <;> simp [Scalar.ne, h1, h2]

theorem quadratic_pure {a c : ℝ} (ha : a ≠ 0) :
    ∃ δ δ' : ℝ, |δ| ≤ F.eps ∧ |δ'| ≤ F.eps ∧ quadraticRoots (fin a) (fin 0) (fin c) =
      if -c / a < 0 then ([] : List (Fl F))
      else [fin (-(Real.sqrt (-c / a * (1 + δ)) * (1 + δ'))), fin (Real.sqrt (-c / a * (1 + δ)) * (1 + δ'))] := by
  have e1 := eps_le' (F := F)
  have g1 : ¬ |a| ≤ 0 := fun h => ha (abs_nonpos_iff.mp h)
  obtain ⟨δ, hδ, h1⟩ := div_rel (F := F) (-c) ha
  have hd := (abs_le.mp hδ).1
  have hp : 0 < 1 + δ := by linarith
  unfold quadraticRoots
  rw [tiny_zero, abs_fin, abs_fin, le_fin, le_fin, decide_eq_false g1, abs_zero, decide_eq_true (le_refl _), rzero]
  simp only [Bool.false_eq_true, if_false, if_true, Fl.neg_fin, h1, lt_fin, decide_eq_true_eq]
  by_cases hc : -c / a < 0
  · refine ⟨δ, 0, hδ, by simpa using (eps_pos' (F := F)).le, ?_⟩
    rw [if_pos hc, if_pos (mul_neg_of_neg_of_pos hc hp)]
  · have h0 : 0 ≤ -c / a * (1 + δ) := mul_nonneg (not_lt.mp hc) hp.le
    obtain ⟨δ', hδ', h2⟩ := sqrt_rel (F := F) h0
    refine ⟨δ, δ', hδ, hδ', ?_⟩
    rw [if_neg hc, if_neg (not_lt.mpr h0), h2, Fl.neg_fin]

/-- C103. Every number that `quadratic_roots` returns nearly satisfies the equation: its residual is at most twelve
machine epsilons of the sum of the magnitudes of the terms, however close the roots are to each other and however
different the coefficients are. Equivalently it is an exact root of an equation whose coefficients differ relatively
by at most twelve machine epsilons. `ha` says that `a` is a number of the format. -/
theorem C103_residual {a b c x : ℝ} (ha : rnd F a = fin a)
    (hx : (fin x : Fl F) ∈ quadraticRoots (fin a) (fin b) (fin c)) :
    |a * x ^ 2 + b * x + c| ≤ 12 * F.eps * (|a| * x ^ 2 + |b| * |x| + |c|) := by
  have e0 := (eps_pos' (F := F)).le
  have e1 := eps_le' (F := F)
  rcases eq_or_ne a 0 with rfl | ha0
  · rw [quadratic_linear] at hx
    split_ifs at hx with h
    · exact absurd hx (by simp)
    · rcases eq_or_ne b 0 with rfl | hb0
      · have hc : c = 0 := by by_contra hc; exact h ⟨rfl, hc⟩
        simp only [zero_mul, zero_add, hc, abs_zero, mul_zero, add_zero, le_refl]
      · obtain ⟨δ, hδ, h1⟩ := div_rel (F := F) (-c) hb0
        rw [Fl.neg_fin, h1] at hx
        have hx' : x = -c / b * (1 + δ) := by simpa [fin_inj] using hx
        have e : (0 : ℝ) * x ^ 2 + b * x + c = -(c * δ) := by rw [hx']; field_simp; ring
        rw [e, abs_neg, abs_mul, abs_zero, zero_mul, zero_add]
        have n1 : 0 ≤ |b| * |x| := by positivity
        have n2 := abs_nonneg c
        have : |c| * |δ| ≤ |c| * F.eps := mul_le_mul_of_nonneg_left hδ n2
        nlinarith
  rcases eq_or_ne b 0 with rfl | hb0
  · obtain ⟨δ, δ', hδ, hδ', h1⟩ := quadratic_pure (F := F) (c := c) ha0
    rw [h1] at hx
    split_ifs at hx with h
    · exact absurd hx (by simp)
    · have hd := (abs_le.mp hδ).1
      have h0 : 0 ≤ -c / a * (1 + δ) := mul_nonneg (not_lt.mp h) (by linarith)
      have hx2 : x ^ 2 = -c / a * ((1 + δ) * (1 + δ') * (1 + δ')) := by
        have : x ^ 2 = (Real.sqrt (-c / a * (1 + δ)) * (1 + δ')) ^ 2 := by
          have hx' : x = -(Real.sqrt (-c / a * (1 + δ)) * (1 + δ')) ∨ x = Real.sqrt (-c / a * (1 + δ)) * (1 + δ') := by
            simpa [fin_inj] using hx
          rcases hx' with h | h
          · rw [h, neg_sq]
          · rw [h]
        rw [this, mul_pow, Real.sq_sqrt h0]; ring
      have e : a * x ^ 2 + 0 * x + c = -(c * ((1 + δ) * (1 + δ') * (1 + δ') - 1)) := by
        rw [hx2]; field_simp; ring
      rw [e, abs_neg, abs_mul, abs_zero, zero_mul, add_zero]
      have n1 : 0 ≤ |a| * x ^ 2 := by positivity
      have n2 := abs_nonneg c
      have := mul_le_mul_of_nonneg_left (rel_mul3 e0 e1 hδ hδ' hδ') n2
      nlinarith
  · obtain ⟨d, hd⟩ := discriminant_finite (F := F) a b c
    rcases lt_or_ge d 0 with hd0 | hd0
    · rw [quadratic_general ha0 hb0 hd hd0] at hx
      exact absurd hx (by simp)
    · obtain ⟨q, s, δ, θ₀, θ₁, hs, hδ, h0, h1, hq0, hq, hbq, hl⟩ := quadratic_branch ha0 hb0 hd hd0
      have hD : |b * b - 4 * a * c| ≤ b ^ 2 + |4 * a * c| := by
        have := abs_sub (b * b) (4 * a * c)
        rw [← sq] at this ⊢
        rwa [abs_of_nonneg (sq_nonneg b)] at this
      have hs2 := sqrt_disc_error e0 e1 (sq_nonneg b) (abs_nonneg _) hD hd0 (discriminant_close ha hd) hδ hs
      rw [hl] at hx
      have hx' : x = q / a * (1 + θ₀) ∨ x = c / q * (1 + θ₁) := by
        split_ifs at hx
        · simpa [fin_inj] using hx
        · rw [or_comm]; simpa [fin_inj] using hx
      rcases hx' with rfl | rfl
      · exact residual_first ha0 e0 e1 h0 hq hbq hs2
      · exact residual_second hq0 e0 e1 h1 hq hbq hs2

/-- C103. An empty answer is nearly right: there are no two separated real roots; the discriminant is negative or below
the second-order error `4 eps² |4 a c|`. -/
theorem C103_empty {a b c : ℝ} (ha : rnd F a = fin a)
    (hx : quadraticRoots (fin a) (fin b) (fin c) = ([] : List (Fl F))) :
    b ^ 2 - 4 * a * c ≤ 4 * F.eps ^ 2 * |4 * a * c| := by
  have e0 := (eps_pos' (F := F)).le
  have e1 := eps_le' (F := F)
  have hr : 0 ≤ 4 * F.eps ^ 2 * |4 * a * c| := by positivity
  rcases eq_or_ne a 0 with rfl | ha0
  · rw [quadratic_linear] at hx
    split_ifs at hx with h
    rw [h.1]; simp
  rcases eq_or_ne b 0 with rfl | hb0
  · obtain ⟨δ, δ', hδ, hδ', h1⟩ := quadratic_pure (F := F) (c := c) ha0
    rw [h1] at hx
    split_ifs at hx with h
    have h4 : 4 * a * c = -(-c / a * (4 * a ^ 2)) := by field_simp
    have : -c / a * (4 * a ^ 2) < 0 := mul_neg_of_neg_of_pos h (by positivity)
    refine le_trans ?_ hr
    linarith
  · obtain ⟨d, hd⟩ := discriminant_finite (F := F) a b c
    rcases lt_or_ge d 0 with hd0 | hd0
    · have h := discriminant_close ha hd
      rw [← sq] at h
      rcases lt_or_ge (b ^ 2 - 4 * a * c) 0 with hn | hn
      · linarith
      · rw [abs_of_nonneg hn] at h
        have := (abs_le.mp h).1
        generalize |4 * a * c| = Q at *
        generalize b ^ 2 - 4 * a * c = D at *
        generalize F.eps = ε at *
        have h5 : D * (1 - 3 * ε) ≤ 3 * ε ^ 2 * Q := by linarith
        by_contra hc
        push Not at hc
        have : 4 * ε ^ 2 * Q * (1 - 3 * ε) < D * (1 - 3 * ε) := mul_lt_mul_of_pos_right hc (by linarith)
        have hQ : 0 ≤ ε ^ 2 * Q := by linarith
        nlinarith
    · obtain ⟨q, s, δ, θ₀, θ₁, hs, hδ, h0, h1, hq0, hq, hbq, hl⟩ := quadratic_branch ha0 hb0 hd hd0
      rw [hl] at hx
      split_ifs at hx

/-- C103. Roots are reported only when the discriminant is not clearly negative. -/
theorem C103_nonempty {a b c : ℝ} (ha : rnd F a = fin a)
    (hx : quadraticRoots (fin a) (fin b) (fin c) ≠ ([] : List (Fl F))) :
    -(4 * F.eps ^ 2 * |4 * a * c|) ≤ b ^ 2 - 4 * a * c := by
  have e0 := (eps_pos' (F := F)).le
  have e1 := eps_le' (F := F)
  have hr : 0 ≤ 4 * F.eps ^ 2 * |4 * a * c| := by positivity
  rcases eq_or_ne a 0 with rfl | ha0
  · rw [mul_zero, zero_mul, sub_zero]
    have := sq_nonneg b
    simp; linarith
  rcases eq_or_ne b 0 with rfl | hb0
  · obtain ⟨δ, δ', hδ, hδ', h1⟩ := quadratic_pure (F := F) (c := c) ha0
    rw [h1] at hx
    split_ifs at hx with h
    · exact absurd rfl hx
    · have h4 : 4 * a * c = -(-c / a * (4 * a ^ 2)) := by field_simp
      have : 0 ≤ -c / a * (4 * a ^ 2) := mul_nonneg (not_lt.mp h) (by positivity)
      refine (neg_nonpos.mpr hr).trans ?_
      rw [h4]; linarith
  · obtain ⟨d, hd⟩ := discriminant_finite (F := F) a b c
    rcases lt_or_ge d 0 with hd0 | hd0
    · exact absurd (quadratic_general ha0 hb0 hd hd0) hx
    · have h := discriminant_close ha hd
      rw [← sq] at h
      rcases lt_or_ge (b ^ 2 - 4 * a * c) 0 with hn | hn
      · rw [abs_of_neg hn] at h
        have := (abs_le.mp h).2
        generalize |4 * a * c| = Q at *
        generalize b ^ 2 - 4 * a * c = D at *
        generalize F.eps = ε at *
        have h5 : -D * (1 - 3 * ε) ≤ 3 * ε ^ 2 * Q := by linarith
        by_contra hc
        push Not at hc
        have : 4 * ε ^ 2 * Q * (1 - 3 * ε) < -D * (1 - 3 * ε) := mul_lt_mul_of_pos_right (by linarith) (by linarith)
        have hQ : 0 ≤ ε ^ 2 * Q := by linarith
        nlinarith
      · linarith

/-- C103. Without overflow the answer consists of finite numbers, unless all three coefficients vanish. -/
theorem C103_finite {a b c : ℝ} (h : a ≠ 0 ∨ b ≠ 0 ∨ c ≠ 0) (r : Fl F)
    (hx : r ∈ quadraticRoots (fin a) (fin b) (fin c)) : ∃ x : ℝ, r = fin x := by
  rcases eq_or_ne a 0 with rfl | ha0
  · rw [quadratic_linear] at hx
    split_ifs at hx with h'
    · exact absurd hx (by simp)
    · have hb0 : b ≠ 0 := by
        rintro rfl
        rcases h with h | h | h
        · exact h rfl
        · exact h rfl
        · exact h' ⟨rfl, h⟩
      obtain ⟨δ, hδ, h1⟩ := div_rel (F := F) (-c) hb0
      rw [Fl.neg_fin, h1] at hx
      exact ⟨_, by simpa using hx⟩
  rcases eq_or_ne b 0 with rfl | hb0
  · obtain ⟨δ, δ', hδ, hδ', h1⟩ := quadratic_pure (F := F) (c := c) ha0
    rw [h1] at hx
    split_ifs at hx with h
    · exact absurd hx (by simp)
    · have hx' : r = fin (-(Real.sqrt (-c / a * (1 + δ)) * (1 + δ'))) ∨ r = fin (Real.sqrt (-c / a * (1 + δ)) * (1 + δ')) := by
        simpa using hx
      rcases hx' with h | h <;> exact ⟨_, h⟩
  · obtain ⟨d, hd⟩ := discriminant_finite (F := F) a b c
    rcases lt_or_ge d 0 with hd0 | hd0
    · rw [quadratic_general ha0 hb0 hd hd0] at hx
      exact absurd hx (by simp)
    · obtain ⟨q, s, δ, θ₀, θ₁, hs, hδ, h0, h1, hq0, hq, hbq, hl⟩ := quadratic_branch ha0 hb0 hd hd0
      rw [hl] at hx
      have hx' : r = fin (q / a * (1 + θ₀)) ∨ r = fin (c / q * (1 + θ₁)) := by
        split_ifs at hx
        · simpa using hx
        · rw [or_comm]; simpa using hx
      rcases hx' with h | h <;> exact ⟨_, h⟩

/-- `x² - 3x + 1` in 53 bits: the hypotheses hold and there are roots. -/
example : rnd (unbounded 53) 1 = fin 1 ∧
    quadraticRoots (fin 1) (fin (-3)) (fin 1) ≠ ([] : List (Fl (unbounded 53))) := by
  refine ⟨rnd_one, fun h => ?_⟩
  have h2 := C103_empty rnd_one h
  have e0 := (eps_pos' (F := unbounded 53)).le
  have e1 := eps_le' (F := unbounded 53)
  generalize (unbounded 53).eps = ε at *
  norm_num at h2
  nlinarith

end C103

/-! ## C104: hit points of a sphere -/

section C104
variable {F : Fmt} [F.Free]

theorem pow_eps_bound {ε : ℝ} (e0 : 0 < ε) (e1 : ε ≤ 1 / 256) : (1 + ε) ^ 7 - 1 ≤ 7.1 * ε ∧ (1 + ε) ^ 2 - 1 ≤ 2.01 * ε := by
  constructor
  · have h2 : (1 + ε) ^ 2 ≤ 1 + 2.004 * ε := by nlinarith
    have h4 : (1 + ε) ^ 4 ≤ 1 + 4.024 * ε := by
      have : ((1 + ε) ^ 2) ^ 2 ≤ (1 + 2.004 * ε) ^ 2 := pow_le_pow_left₀ (by positivity) h2 2
      nlinarith
    have h6 : (1 + ε) ^ 6 ≤ 1 + 6.06 * ε := by
      have : (1 + ε) ^ 4 * (1 + ε) ^ 2 ≤ (1 + 4.024 * ε) * (1 + 2.004 * ε) :=
        mul_le_mul h4 h2 (by positivity) (by positivity)
      nlinarith
    have : (1 + ε) ^ 6 * (1 + ε) ≤ (1 + 6.06 * ε) * (1 + ε) := mul_le_mul_of_nonneg_right h6 (by positivity)
    nlinarith
  · nlinarith

theorem App.fin_add {x y : ℝ} : App 1 ((fin x : Fl F) + fin y) (x + y) (|x| + |y|) := (App.fin' x).add (App.fin' y)
theorem App.fin_sub {x y : ℝ} : App 1 ((fin x : Fl F) - fin y) (x - y) (|x| + |y|) := (App.fin' x).sub (App.fin' y)

/-- Residual of the exact point from the residual of the computed equation. -/
theorem coefficients_shift {ε A B C a b c t Nb Nc : ℝ} (e0 : 0 < ε) (e1 : ε ≤ 1 / 256) (hA : 0 ≤ A) (hB : |B| ≤ Nb)
    (hC : |C| ≤ Nc)
    (ha : |a - A| ≤ 7.1 * ε * A) (hb : |b - B| ≤ 7.1 * ε * Nb) (hc : |c - C| ≤ 7.1 * ε * Nc)
    (h : |a * t ^ 2 + b * t + c| ≤ 12 * ε * (|a| * t ^ 2 + |b| * |t| + |c|)) :
    |A * t ^ 2 + B * t + C| ≤ 19.5 * ε * (A * t ^ 2 + Nb * |t| + Nc) := by
  have ht := sq_nonneg t
  have ht' := abs_nonneg t
  have hNb : 0 ≤ Nb := (abs_nonneg B).trans hB
  have hNc : 0 ≤ Nc := (abs_nonneg C).trans hC
  have k1 : |a| ≤ 1.03 * A := by
    have := abs_add_le A (a - A)
    rw [show A + (a - A) = a by ring, abs_of_nonneg hA] at this
    nlinarith
  have k2 : |b| ≤ 1.03 * Nb := by
    have := abs_add_le B (b - B)
    rw [show B + (b - B) = b by ring] at this
    nlinarith
  have k3 : |c| ≤ 1.03 * Nc := by
    have := abs_add_le C (c - C)
    rw [show C + (c - C) = c by ring] at this
    nlinarith
  have m1 : |(a - A) * t ^ 2| ≤ 7.1 * ε * A * t ^ 2 := by
    rw [abs_mul, abs_of_nonneg ht]; exact mul_le_mul_of_nonneg_right ha ht
  have m2 : |(b - B) * t| ≤ 7.1 * ε * Nb * |t| := by
    rw [abs_mul]; exact mul_le_mul_of_nonneg_right hb ht'
  have n1 := mul_le_mul_of_nonneg_right k1 ht
  have n2 := mul_le_mul_of_nonneg_right k2 ht'
  have s1 : |A * t ^ 2 + B * t + C| ≤
      |a * t ^ 2 + b * t + c| + (|(a - A) * t ^ 2| + |(b - B) * t| + |c - C|) := by
    have w1 := abs_sub (a * t ^ 2 + b * t + c) ((a - A) * t ^ 2 + (b - B) * t + (c - C))
    have w2 := abs_add_le ((a - A) * t ^ 2 + (b - B) * t) (c - C)
    have w3 := abs_add_le ((a - A) * t ^ 2) ((b - B) * t)
    rw [show a * t ^ 2 + b * t + c - ((a - A) * t ^ 2 + (b - B) * t + (c - C)) = A * t ^ 2 + B * t + C by ring] at w1
    linarith
  have s2 : 12 * ε * (|a| * t ^ 2 + |b| * |t| + |c|) ≤ 12 * ε * (1.03 * A * t ^ 2 + 1.03 * Nb * |t| + 1.03 * Nc) :=
    mul_le_mul_of_nonneg_left (by linarith) (by linarith)
  have p1 : 0 ≤ ε * (A * t ^ 2) := by positivity
  have p2 : 0 ≤ ε * (Nb * |t|) := by positivity
  have p3 : 0 ≤ ε * Nc := by positivity
  nlinarith

/-- One coordinate of the computed point. -/
theorem coordinate_shift {ε o d C t p : ℝ} (e0 : 0 < ε) (e1 : ε ≤ 1 / 256)
    (hp : |p - (o + t * d)| ≤ 2.01 * ε * (|o| + |t| * |d|)) :
    |(p - C) ^ 2 - (o + t * d - C) ^ 2| ≤ 4.2 * ε * (|o| + |C| + |t| * |d|) ^ 2 := by
  have n1 := abs_nonneg o
  have n2 := abs_nonneg C
  have n3 : 0 ≤ |t| * |d| := by positivity
  have h1 : |p - (o + t * d)| ≤ 2.01 * ε * (|o| + |C| + |t| * |d|) := hp.trans (by nlinarith)
  have h2 : |o + t * d - C| ≤ |o| + |C| + |t| * |d| := by
    have w1 := abs_sub (o + t * d) C
    have w2 := abs_add_le o (t * d)
    rw [abs_mul] at w2
    linarith
  generalize |o| + |C| + |t| * |d| = L at *
  have hL : 0 ≤ L := (abs_nonneg _).trans h2
  rw [show (p - C) ^ 2 - (o + t * d - C) ^ 2 = (p - (o + t * d)) * (p - (o + t * d) + 2 * (o + t * d - C)) by ring, abs_mul]
  have h3 : |p - (o + t * d) + 2 * (o + t * d - C)| ≤ 2.01 * L := by
    have w1 := abs_add_le (p - (o + t * d)) (2 * (o + t * d - C))
    rw [abs_mul, abs_of_pos (by norm_num : (0 : ℝ) < 2)] at w1
    nlinarith
  calc _ ≤ 2.01 * ε * L * (2.01 * L) := mul_le_mul h1 h3 (abs_nonneg _) (by positivity)
    _ ≤ _ := by nlinarith [mul_nonneg e0.le (mul_nonneg hL hL)]

theorem first_root_mem {R : Type} [Scalar R] {a b c tmin tmax t : R}
    (h : firstQuadraticRootInRange a b c tmin tmax = some t) :
    t ∈ quadraticRoots a b c ∧ Scalar.ge t tmin = true ∧ Scalar.le t tmax = true := by
  unfold firstQuadraticRootInRange at h
  split at h
  · rename_i r0 r1 he
    rw [he]
    split_ifs at h with h1 h2
    · simp only [Option.some.injEq] at h
      rw [Bool.and_eq_true] at h1
      rw [← h]; exact ⟨by simp, h1⟩
    · simp only [Option.some.injEq] at h
      rw [Bool.and_eq_true] at h2
      rw [← h]; exact ⟨by simp, h2⟩
  · exact absurd h (by simp)

/-- C104: the parameter that `sphere::hit` reports nearly solves the equation of the sphere along the ray, and the recorded
point is nearly the point of the ray at that parameter. -/
theorem C104_parameter {C o d : Fin 3 → ℝ} {r : ℝ} (hd : d ≠ 0) {tmin tmax : Fl F} {rec out : HitRecord (Fl F)}
    (h : Sphere.hit ⟨fun i => fin (C i), fin r⟩ ⟨fun i => fin (o i), fun i => fin (d i)⟩ tmin tmax rec = (true, out)) :
    ∃ (t : ℝ) (p : Fin 3 → ℝ), out.t = fin t ∧ out.p = (fun i => fin (p i)) ∧
      Scalar.le tmin (fin t) = true ∧ Scalar.le (fin t) tmax = true ∧
      |∑ i, (o i + t * d i - C i) ^ 2 - r ^ 2| ≤ 19.5 * F.eps * (∑ i, (|o i| + |C i| + |t| * |d i|) ^ 2 + r ^ 2) ∧
      (∀ i, |p i - (o i + t * d i)| ≤ 2.01 * F.eps * (|o i| + |t| * |d i|)) ∧
      |∑ i, (p i - C i) ^ 2 - r ^ 2| ≤ 24 * F.eps * (∑ i, (|o i| + |C i| + |t| * |d i|) ^ 2 + r ^ 2) := by
  have e0 := eps_pos' (F := F)
  have e1 := eps_le' (F := F)
  obtain ⟨g7, g2⟩ := pow_eps_bound e0 e1
  -- the coefficients
  obtain ⟨a, ha, hA1, hA2⟩ := sum_sq_bounds (F := F) d
  have hoc : ∀ i, App 1 (((fun i => fin (o i)) - (fun i => fin (C i)) : Vec (Fl F) 3) i) (o i - C i) (|o i| + |C i|) :=
    fun i => App.fin_sub
  have Aa : App 7 (squaredNorm (fun i => fin (d i)) : Fl F) (∑ i, d i * d i) (∑ i, |d i| * |d i|) :=
    App.weaken (App.loopSum fun i => (App.fin' (d i)).mul (App.fin' (d i))) (by norm_num) (le_refl _)
  have Ab : App 7 ((2 : Fl F) * dot ((fun i => fin (o i)) - (fun i => fin (C i))) (fun i => fin (d i)))
      (((2 : ℕ) : ℝ) * ∑ i, (o i - C i) * d i) (((2 : ℕ) : ℝ) * ∑ i, (|o i| + |C i|) * |d i|) :=
    App.weaken ((App.lit 2 (by norm_num)).mul (App.loopSum fun i => (hoc i).mul (App.fin' (d i)))) (by norm_num)
      (le_refl _)
  have Ac : App 7 (squaredNorm ((fun i => fin (o i)) - (fun i => fin (C i))) - (fin r : Fl F) * fin r)
      (∑ i, (o i - C i) * (o i - C i) - r * r) (∑ i, (|o i| + |C i|) * (|o i| + |C i|) + |r| * |r|) :=
    App.weaken ((App.loopSum fun i => (hoc i).mul (hoc i)).sub ((App.fin' r).mul (App.fin' r))) (by norm_num)
      (le_refl _)
  obtain ⟨a', ha', hA3, hA4⟩ := Aa
  rw [ha, fin_inj] at ha'
  subst ha'
  obtain ⟨b, hb, hB1, hB2⟩ := Ab
  obtain ⟨c, hc, hC1, hC2⟩ := Ac
  simp only [abs_mul_abs_self] at hA3 hA4 hC1 hC2
  unfold Sphere.hit at h
  simp only [ha, hb, hc] at h
  split at h
  · exact absurd (congrArg Prod.fst h) (by simp)
  rename_i t' ht'
  obtain ⟨hmem, hlo, hhi⟩ := first_root_mem ht'
  have hN : 0 < ∑ j, d j ^ 2 := by
    obtain ⟨j, hj⟩ := Function.ne_iff.mp hd
    have hj' : d j ≠ 0 := hj
    exact Finset.sum_pos' (fun i _ => sq_nonneg _) ⟨j, Finset.mem_univ _, by positivity⟩
  have ha0 : 0 < a := lt_of_lt_of_le (mul_pos (pow_pos (by linarith) _) hN) hA1
  obtain ⟨t, rfl⟩ := C103_finite (Or.inl ha0.ne') t' hmem
  -- `a` is the result of a rounding
  have hra : rnd F a = fin a := by
    have h1 : squaredNorm (fun i => fin (d i)) = (fin a : Fl F) := ha
    unfold squaredNorm at h1
    rw [loopSum_succ] at h1
    obtain ⟨_, _, _, _, h2⟩ := add_eq_fin h1
    exact Fmt.Free.idem h2
  have hres := C103_residual hra hmem
  have hpt : ∀ i, App 2 ((fin (o i) : Fl F) + fin t * fin (d i)) (o i + t * d i) (|o i| + |t| * |d i|) := fun i =>
    App.weaken ((App.fin' (o i)).add ((App.fin' t).mul (App.fin' (d i)))) (by norm_num) (le_refl _)
  choose p hp hp1 hp2 using hpt
  have hout : out = _ := (congrArg Prod.snd h).symm
  refine ⟨t, p, ?_, ?_, hlo, hhi, ?_⟩
  · exact congrArg HitRecord.t hout
  · refine (congrArg HitRecord.p hout).trans ?_
    funext i
    exact hp i
  · have hsh := coefficients_shift (t := t) e0 e1 (Finset.sum_nonneg fun i _ => mul_self_nonneg (d i)) hB1 hC1
      (hA4.trans (mul_le_mul_of_nonneg_right g7 (Finset.sum_nonneg fun i _ => mul_self_nonneg (d i))))
      (hB2.trans (mul_le_mul_of_nonneg_right g7 ((abs_nonneg _).trans hB1)))
      (hC2.trans (mul_le_mul_of_nonneg_right g7 ((abs_nonneg _).trans hC1))) hres
    have hco0 : ∀ i, |p i - (o i + t * d i)| ≤ 2.01 * F.eps * (|o i| + |t| * |d i|) :=
      fun i => (hp2 i).trans (mul_le_mul_of_nonneg_right g2 (by positivity))
    have hco : ∀ i, |(p i - C i) ^ 2 - (o i + t * d i - C i) ^ 2| ≤ 4.2 * F.eps * (|o i| + |C i| + |t| * |d i|) ^ 2 :=
      fun i => coordinate_shift e0 e1 (hco0 i)
    have hsum : |∑ i, ((p i - C i) ^ 2 - (o i + t * d i - C i) ^ 2)| ≤
        ∑ i, 4.2 * F.eps * (|o i| + |C i| + |t| * |d i|) ^ 2 :=
      (Finset.abs_sum_le_sum_abs _ _).trans (Finset.sum_le_sum fun i _ => hco i)
    rw [← Finset.mul_sum, Finset.sum_sub_distrib] at hsum
    have e2 : (∑ i, d i * d i) * t ^ 2 + ((2 : ℕ) : ℝ) * (∑ i, (o i - C i) * d i) * t +
        (∑ i, (o i - C i) * (o i - C i) - r * r) = ∑ i, (o i + t * d i - C i) ^ 2 - r ^ 2 := by
      simp only [Fin.sum_univ_three]; push_cast; ring
    have e3 : (∑ i, d i * d i) * t ^ 2 + ((2 : ℕ) : ℝ) * (∑ i, (|o i| + |C i|) * |d i|) * |t| +
        (∑ i, (|o i| + |C i|) * (|o i| + |C i|) + r * r) = ∑ i, (|o i| + |C i| + |t| * |d i|) ^ 2 + r ^ 2 := by
      have hsq : ∀ i, d i * d i * t ^ 2 = (|t| * |d i|) ^ 2 := fun i => by rw [mul_pow, sq_abs, sq_abs]; ring
      rw [Finset.sum_mul, Finset.sum_congr rfl fun i _ => hsq i]
      simp only [Fin.sum_univ_three]; push_cast; ring
    rw [e2, e3] at hsh
    refine ⟨hsh, hco0, ?_⟩
    have hfin := abs_add_le (∑ i, (p i - C i) ^ 2 - ∑ i, (o i + t * d i - C i) ^ 2)
      (∑ i, (o i + t * d i - C i) ^ 2 - r ^ 2)
    rw [sub_add_sub_cancel] at hfin
    have n1 : 0 ≤ ∑ i, (|o i| + |C i| + |t| * |d i|) ^ 2 := Finset.sum_nonneg fun i _ => sq_nonneg _
    have n2 := sq_nonneg r
    generalize ∑ i, (|o i| + |C i| + |t| * |d i|) ^ 2 = L at *
    have n3 := mul_nonneg e0.le n1
    have n4 := mul_nonneg e0.le n2
    nlinarith

/-- C104. The point that a hit on a sphere reports satisfies the equation of the sphere up to 24 machine epsilons of
the square of the coordinates involved, and its parameter lies in the range. The bound has no term for glancing rays
or small spheres. -/
theorem C104_sphere {C o d : Fin 3 → ℝ} {r : ℝ} (hd : d ≠ 0) {tmin tmax : Fl F} {rec out : HitRecord (Fl F)}
    (h : Sphere.hit ⟨fun i => fin (C i), fin r⟩ ⟨fun i => fin (o i), fun i => fin (d i)⟩ tmin tmax rec = (true, out)) :
    ∃ (t : ℝ) (p : Fin 3 → ℝ), out.t = fin t ∧ out.p = (fun i => fin (p i)) ∧
      Scalar.le tmin (fin t) = true ∧ Scalar.le (fin t) tmax = true ∧
      |∑ i, (p i - C i) ^ 2 - r ^ 2| ≤ 24 * F.eps * (∑ i, (|o i| + |C i| + |t| * |d i|) ^ 2 + r ^ 2) := by
  obtain ⟨t, p, h1, h2, h3, h4, -, -, h5⟩ := C104_parameter hd h
  exact ⟨t, p, h1, h2, h3, h4, h5⟩

/-- The ray from `(2,0,0)` along the first axis, with any parameter allowed, hits the unit sphere, in 53 bits. -/
example (rec : HitRecord (Fl (unbounded 53))) :
    ∃ out, Sphere.hit ⟨fun i => fin ((![0, 0, 0] : Fin 3 → ℝ) i), fin 1⟩
      ⟨fun i => fin ((![2, 0, 0] : Fin 3 → ℝ) i), fun i => fin ((![1, 0, 0] : Fin 3 → ℝ) i)⟩ ninf pinf rec =
      (true, out) := by
  have hn : ∀ (n : ℕ) (x : ℝ), n ≤ 256 → x = n → rnd (unbounded 53) x = fin x := by
    rintro n x h rfl; exact Fmt.Rounding.small n h
  have hm : ∀ (n : ℕ) (x y : ℝ), n ≤ 256 → x * y = n → (fin x : Fl (unbounded 53)) * fin y = fin (n : ℝ) := by
    intro n x y h e; show rnd (unbounded 53) (x * y) = _; rw [hn n _ h e, e]
  have hs : ∀ (n : ℕ) (x y : ℝ), n ≤ 256 → x + y = n → (fin x : Fl (unbounded 53)) + fin y = fin (n : ℝ) := by
    intro n x y h e; show rnd (unbounded 53) (x + y) = _; rw [hn n _ h e, e]
  have hd : ∀ (n : ℕ) (x y : ℝ), n ≤ 256 → x - y = n → (fin x : Fl (unbounded 53)) - fin y = fin (n : ℝ) := by
    intro n x y h e; rw [Fl.sub_eq, Fl.neg_fin]; exact hs n _ _ h (by rw [← e]; ring)
  have ha : squaredNorm (fun i => fin ((![1, 0, 0] : Fin 3 → ℝ) i)) = (fin 1 : Fl (unbounded 53)) := by
    unfold squaredNorm
    rw [loopSum_succ, loopSum_succ, loopSum_succ]
    show (((0 : Fl (unbounded 53)) + fin 1 * fin 1) + fin 0 * fin 0) + fin 0 * fin 0 = _
    rw [rzero, hm 1 1 1 (by norm_num) (by norm_num), hm 0 0 0 (by norm_num) (by norm_num),
      hs 1 0 _ (by norm_num) (by norm_num), hs 1 _ _ (by norm_num) (by norm_num),
      hs 1 _ _ (by norm_num) (by norm_num)]
    norm_num
  have hoc : ((fun i => fin ((![2, 0, 0] : Fin 3 → ℝ) i)) - (fun i => fin ((![0, 0, 0] : Fin 3 → ℝ) i)) :
      Vec (Fl (unbounded 53)) 3) = fun i => fin ((![2, 0, 0] : Fin 3 → ℝ) i) := by
    funext i
    fin_cases i
    · exact (hd 2 2 0 (by norm_num) (by norm_num)).trans (by norm_num)
    · exact (hd 0 0 0 (by norm_num) (by norm_num)).trans (by norm_num)
    · exact (hd 0 0 0 (by norm_num) (by norm_num)).trans (by norm_num)
  have hb : (2 : Fl (unbounded 53)) * dot (fun i => fin ((![2, 0, 0] : Fin 3 → ℝ) i))
      (fun i => fin ((![1, 0, 0] : Fin 3 → ℝ) i)) = fin 4 := by
    unfold dot
    rw [loopSum_succ, loopSum_succ, loopSum_succ]
    show (2 : Fl (unbounded 53)) * ((((0 : Fl (unbounded 53)) + fin 2 * fin 1) + fin 0 * fin 0) + fin 0 * fin 0) = _
    rw [rzero, hm 2 2 1 (by norm_num) (by norm_num), hm 0 0 0 (by norm_num) (by norm_num),
      hs 2 0 _ (by norm_num) (by norm_num), hs 2 _ _ (by norm_num) (by norm_num),
      hs 2 _ _ (by norm_num) (by norm_num), lit_small 2 (by norm_num), hm 4 _ _ (by norm_num) (by norm_num)]
    norm_num
  have hc : squaredNorm (fun i => fin ((![2, 0, 0] : Fin 3 → ℝ) i)) - fin 1 * fin 1 = (fin 3 : Fl (unbounded 53)) := by
    unfold squaredNorm
    rw [loopSum_succ, loopSum_succ, loopSum_succ]
    show (((0 : Fl (unbounded 53)) + fin 2 * fin 2) + fin 0 * fin 0) + fin 0 * fin 0 - fin 1 * fin 1 = _
    rw [rzero, hm 4 2 2 (by norm_num) (by norm_num), hm 0 0 0 (by norm_num) (by norm_num),
      hs 4 0 _ (by norm_num) (by norm_num), hs 4 _ _ (by norm_num) (by norm_num),
      hs 4 _ _ (by norm_num) (by norm_num), hm 1 1 1 (by norm_num) (by norm_num),
      hd 3 _ _ (by norm_num) (by norm_num)]
    norm_num
  obtain ⟨t, ht⟩ : ∃ t, firstQuadraticRootInRange (fin 1) (fin 4) (fin 3) ninf (pinf : Fl (unbounded 53)) = some t := by
    obtain ⟨d, hd⟩ := discriminant_finite (F := unbounded 53) 1 4 3
    have e1 := eps_le' (F := unbounded 53)
    have e0 := (eps_pos' (F := unbounded 53)).le
    rcases lt_or_ge d 0 with h | h
    · have := C103_empty rnd_one (quadratic_general one_ne_zero (by norm_num) hd h)
      exfalso
      generalize (unbounded 53).eps = ε at *
      norm_num at this
      nlinarith
    · obtain ⟨q, s, δ, θ₀, θ₁, -, -, -, -, -, -, -, hl⟩ := quadratic_branch one_ne_zero (by norm_num) hd h
      unfold firstQuadraticRootInRange
      rw [hl]
      split_ifs
      · exact ⟨_, rfl⟩
      · exact ⟨_, rfl⟩
  unfold Sphere.hit
  simp only [hoc, ha, hb, hc, ht]
  exact ⟨_, rfl⟩

end C104
end DRT
