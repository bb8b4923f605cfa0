import Verif.Scalar.Lemmas
import Verif.Model.Vec
import Mathlib.LinearAlgebra.CrossProduct

/-! # Vector operations on finite values in exact formats -/

namespace DRT
open Scalar Vec Fl Matrix

variable {F : Fmt} {n : ℕ}

/-- A real vector as a vector of the format. -/
def cv (v : Fin n → ℝ) : Vec (Fl F) n := fun i => fin (v i)

@[fl] theorem cv_apply (v : Fin n → ℝ) (i : Fin n) : (cv v : Vec (Fl F) n) i = fin (v i) := rfl
theorem cv_inj {u v : Fin n → ℝ} : (cv u : Vec (Fl F) n) = cv v ↔ u = v := by
  constructor
  · intro h; funext i; exact fin_inj.mp (congrFun h i)
  · rintro rfl; rfl

@[fl] theorem cv_neg (u : Fin n → ℝ) : -(cv u : Vec (Fl F) n) = cv (-u) := rfl
theorem cv_vec3 (a b c : ℝ) : (![fin a, fin b, fin c] : Vec (Fl F) 3) = cv ![a, b, c] := by
  funext i; fin_cases i <;> rfl
theorem cv_vec2 (a b : ℝ) : (![fin a, fin b] : Vec (Fl F) 2) = cv ![a, b] := by
  funext i; fin_cases i <;> rfl

theorem min_fin (a b : ℝ) : Scalar.min (fin a : Fl F) (fin b) = fin (Min.min a b) := by
  unfold Scalar.min
  rw [lt_fin]
  by_cases h : b < a
  · rw [if_pos (by simpa using h), min_eq_right h.le]
  · rw [if_neg (by simpa using h), min_eq_left (not_lt.mp h)]

theorem max_fin (a b : ℝ) : Scalar.max (fin a : Fl F) (fin b) = fin (Max.max a b) := by
  unfold Scalar.max
  rw [lt_fin]
  by_cases h : a < b
  · rw [if_pos (by simpa using h), max_eq_right h.le]
  · rw [if_neg (by simpa using h), max_eq_left (not_lt.mp h)]

variable [F.Exact]

theorem loopSum_succ {R : Type} [Scalar R] (f : Fin (n + 1) → R) :
    loopSum (n + 1) f = loopSum n (fun i => f i.castSucc) + f (Fin.last n) := by
  simp [loopSum, Fin.foldl_succ_last]

theorem loopSum_fin (f : Fin n → ℝ) : loopSum n (fun i => (fin (f i) : Fl F)) = fin (∑ i, f i) := by
  induction n with
  | zero => simp [loopSum, ofNat_zero]
  | succ k ih => rw [loopSum_succ, ih, add_fin, Fin.sum_univ_castSucc]

@[fl] theorem cv_add (u v : Fin n → ℝ) : (cv u : Vec (Fl F) n) + cv v = cv (u + v) := by
  funext i; simp [cv]
@[fl] theorem cv_sub (u v : Fin n → ℝ) : (cv u : Vec (Fl F) n) - cv v = cv (u - v) := by
  funext i; simp [cv]
@[fl] theorem cv_smul (t : ℝ) (v : Fin n → ℝ) : (fin t : Fl F) •. (cv v : Vec (Fl F) n) = cv (t • v) := by
  funext i; simp [cv, Vec.smul]
theorem cv_sdiv {t : ℝ} (ht : t ≠ 0) (v : Fin n → ℝ) :
    (cv v : Vec (Fl F) n) /. (fin t : Fl F) = cv (t⁻¹ • v) := by
  funext i; simp [cv, Vec.sdiv, div_fin _ ht, div_eq_inv_mul]
@[fl] theorem cv_dot (u v : Fin n → ℝ) : dot (cv u : Vec (Fl F) n) (cv v) = fin (u ⬝ᵥ v) := by
  simp only [dot, cv_apply, mul_fin, loopSum_fin]; rfl
@[fl] theorem cv_squaredNorm (v : Fin n → ℝ) : squaredNorm (cv v : Vec (Fl F) n) = fin (v ⬝ᵥ v) := by
  simp only [squaredNorm, cv_apply, mul_fin, loopSum_fin]; rfl
theorem dotProduct_self_nonneg' (v : Fin n → ℝ) : 0 ≤ v ⬝ᵥ v :=
  Finset.sum_nonneg fun i _ => mul_self_nonneg (v i)
@[fl] theorem cv_norm (v : Fin n → ℝ) :
    Vec.norm (cv v : Vec (Fl F) n) = fin (Real.sqrt (v ⬝ᵥ v)) := by
  rw [Vec.norm, cv_squaredNorm, sqrt_fin (dotProduct_self_nonneg' v)]
@[fl] theorem dop_fin (a b c d : ℝ) :
    differenceOfProducts (fin a : Fl F) (fin b) (fin c) (fin d) = fin (a * b - c * d) := by
  simp only [differenceOfProducts, fl]; ring
@[fl] theorem cv_cross (u v : Fin 3 → ℝ) : cross (cv u : Vec (Fl F) 3) (cv v) = cv (u ⨯₃ v) := by
  simp only [cross, cv_apply, dop_fin, cv_vec3, cross_apply]
@[fl] theorem cv_reflect (v m : Fin n → ℝ) :
    reflect (cv v : Vec (Fl F) n) (cv m) = cv (v - (2 * (v ⬝ᵥ m)) • m) := by
  simp only [reflect, fl, Nat.cast_ofNat]
@[fl] theorem ray_at_cv (o d : Fin 3 → ℝ) (t : ℝ) :
    (Ray.mk (cv o) (cv d) : Ray (Fl F)).at (fin t) = cv (o + t • d) := by
  simp only [Ray.at, fl]

end DRT
