import Verif.Spec.Surface
import Mathlib.MeasureTheory.Integral.IntervalIntegral.Basic
import Mathlib.LinearAlgebra.CrossProduct

/-! # Specification of the area of a parametrized surface -/

namespace DRT
open Scalar Fl Matrix

variable {F : Fmt}

/-- `A` is the area of the surface that `σ` parametrizes over the unit square: the integral of `|σ_u × σ_v|`. -/
def SurfaceArea (σ : Fl F → Fl F → Vec (Fl F) 3) (A : ℝ) : Prop :=
  ∃ s su sv : ℝ → ℝ → Fin 3 → ℝ, (∀ u v, σ (fin u) (fin v) = cv (s u v)) ∧
    (∀ u v i, HasDerivAt (fun x => s x v i) (su u v i) u ∧ HasDerivAt (fun y => s u y i) (sv u v i) v) ∧
    A = ∫ u in (0 : ℝ)..1, ∫ v in (0 : ℝ)..1, Real.sqrt ((su u v ⨯₃ sv u v) ⬝ᵥ (su u v ⨯₃ sv u v))

end DRT
