import Verif.Lemmas.Vec
import Verif.Model.Matrix
import Mathlib.LinearAlgebra.Matrix.NonsingularInverse
import Mathlib.LinearAlgebra.Matrix.ToLinearEquiv

/-! # Matrix operations on finite values in exact formats -/

namespace DRT
open Scalar Fl Matrix
open Vec (dot)

variable {F : Fmt} {n : ℕ}

/-- A real matrix as a matrix of the format. -/
def cm {r c : ℕ} (M : Matrix (Fin r) (Fin c) ℝ) : Mat (Fl F) r c := fun i j => fin (M i j)

@[fl] theorem cm_apply {r c : ℕ} (M : Matrix (Fin r) (Fin c) ℝ) (i : Fin r) (j : Fin c) :
    (cm M : Mat (Fl F) r c) i j = fin (M i j) := rfl

theorem cm_inj {r c : ℕ} {M N : Matrix (Fin r) (Fin c) ℝ} :
    (cm M : Mat (Fl F) r c) = cm N ↔ M = N := by
  constructor
  · intro h; funext i j; exact fin_inj.mp (congrFun (congrFun h i) j)
  · rintro rfl; rfl

variable [F.Exact]

@[fl] theorem cm_mulVec {r c : ℕ} (M : Matrix (Fin r) (Fin c) ℝ) (v : Fin c → ℝ) :
    Mat.mulVec (cm M : Mat (Fl F) r c) (cv v) = cv (M *ᵥ v) := by
  funext i
  simp only [Mat.mulVec, cm_apply, cv_apply, mul_fin, loopSum_fin]; rfl

@[fl] theorem cm_mul {r c k : ℕ} (M : Matrix (Fin r) (Fin c) ℝ) (N : Matrix (Fin c) (Fin k) ℝ) :
    Mat.mul (cm M : Mat (Fl F) r c) (cm N) = cm (M * N) := by
  funext i j
  simp only [Mat.mul, cm_apply, mul_fin, loopSum_fin]; rfl

theorem cm_det2 (M : Matrix (Fin 2) (Fin 2) ℝ) :
    Mat.det2 (cm M : Mat (Fl F) 2 2) = fin M.det := by
  simp only [Mat.det2, fl, Matrix.det_fin_two]

theorem cm_det3 (M : Matrix (Fin 3) (Fin 3) ℝ) :
    Mat.det3 (cm M : Mat (Fl F) 3 3) = fin M.det := by
  simp only [Mat.det3, fl, Matrix.det_fin_three]; ring

end DRT
