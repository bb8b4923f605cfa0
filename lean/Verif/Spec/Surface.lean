import Verif.Model.Hittable
import Verif.Lemmas.Vec
import Mathlib.Analysis.Calculus.Deriv.Basic

/-!
# Specifications shared by the surfaces

A surface is a set of points. `FindsNearest` says what a user expects of `hit`. `FirstDerivatives` and
`SecondDerivatives` say what a user expects of the overloads of `operator()` that fill `J` and `H`.
-/

namespace DRT
open Scalar Fl

variable {F : Fmt}

/-- The real number `x` lies in the range (ends may be infinite). -/
def InRange (t : Fl F × Fl F) (x : ℝ) : Prop := Scalar.le t.1 (fin x) = true ∧ Scalar.le (fin x) t.2 = true

/-- `h tmax rec` is the outcome of `hit` on the ray from `o` in direction `d`, from `tmin` on. It is a hit exactly when
the ray meets the set `S` in the closed range, and then the record has the first parameter at which it does, and the
point there. Nothing is said about a NaN upper bound. -/
def FindsNearest (S : Set (Fin 3 → ℝ)) (o d : Fin 3 → ℝ) (tmin : Fl F)
    (h : Fl F → HitRecord (Fl F) → Bool × HitRecord (Fl F)) : Prop :=
  ∀ tmax rec, isNaN tmax = false → ((h tmax rec).1 = true ↔ ∃ z, InRange (tmin, tmax) z ∧ o + z • d ∈ S) ∧
    ((h tmax rec).1 = true → ∃ z, (h tmax rec).2.t = fin z ∧ (h tmax rec).2.p = cv (o + z • d) ∧
      InRange (tmin, tmax) z ∧ o + z • d ∈ S ∧ ∀ w, InRange (tmin, tmax) w → o + w • d ∈ S → z ≤ w)

/-- As `FindsNearest`, but hits whose parameter is not a number do not count. -/
def FindsNumber (S : Set (Fin 3 → ℝ)) (o d : Fin 3 → ℝ) (tmin : Fl F)
    (h : Fl F → HitRecord (Fl F) → Bool × HitRecord (Fl F)) : Prop :=
  ∀ tmax rec, isNaN tmax = false →
    (((h tmax rec).1 = true ∧ (h tmax rec).2.t ≠ Fl.nan) ↔ ∃ z, InRange (tmin, tmax) z ∧ o + z • d ∈ S) ∧
    ((h tmax rec).1 = true → (h tmax rec).2.t ≠ Fl.nan → ∃ z, (h tmax rec).2.t = fin z ∧ (h tmax rec).2.p = cv (o + z • d) ∧
      InRange (tmin, tmax) z ∧ o + z • d ∈ S ∧ ∀ w, InRange (tmin, tmax) w → o + w • d ∈ S → z ≤ w)

/-- When it is known which parameter is the first, the record has it. -/
theorem FindsNearest.at {S : Set (Fin 3 → ℝ)} {o d : Fin 3 → ℝ} {tmin tmax : Fl F}
    {h : Fl F → HitRecord (Fl F) → Bool × HitRecord (Fl F)} (hh : FindsNearest S o d tmin h) (hm : isNaN tmax = false) {z : ℝ}
    (hz : InRange (tmin, tmax) z) (hS : o + z • d ∈ S) (hmin : ∀ w, InRange (tmin, tmax) w → o + w • d ∈ S → z ≤ w)
    (rec : HitRecord (Fl F)) : (h tmax rec).1 = true ∧ (h tmax rec).2.t = fin z ∧ (h tmax rec).2.p = cv (o + z • d) := by
  have h1 := ((hh tmax rec hm).1).mpr ⟨z, hz, hS⟩
  obtain ⟨w, ht, hp, hw, hwS, hle⟩ := (hh tmax rec hm).2 h1
  obtain rfl : w = z := le_antisymm (hle z hz hS) (hmin w hw hwS)
  exact ⟨h1, ht, hp⟩

/-- The first two columns of `J` are the partial derivatives of `σ`, for all real parameters. -/
def FirstDerivatives (σ : Fl F → Fl F → Vec (Fl F) 3) (J : Fl F → Fl F → Fin 3 → Fin 3 → Fl F) : Prop :=
  ∃ s su sv : ℝ → ℝ → Fin 3 → ℝ, (∀ u v, σ (fin u) (fin v) = cv (s u v)) ∧
    (∀ u v i, J (fin u) (fin v) i 0 = fin (su u v i) ∧ J (fin u) (fin v) i 1 = fin (sv u v i)) ∧
    ∀ u v i, HasDerivAt (fun x => s x v i) (su u v i) u ∧ HasDerivAt (fun y => s u y i) (sv u v i) v

/-- In addition `H i j k` is the derivative of column `j` of `J` in parameter `k`. -/
def SecondDerivatives (σ : Fl F → Fl F → Vec (Fl F) 3) (J : Fl F → Fl F → Fin 3 → Fin 3 → Fl F)
    (H : Fl F → Fl F → Fin 3 → Fin 2 → Fin 2 → Fl F) : Prop :=
  ∃ s su sv : ℝ → ℝ → Fin 3 → ℝ, (∀ u v, σ (fin u) (fin v) = cv (s u v)) ∧
    (∀ u v i, J (fin u) (fin v) i 0 = fin (su u v i) ∧ J (fin u) (fin v) i 1 = fin (sv u v i)) ∧
    (∀ u v i, HasDerivAt (fun x => s x v i) (su u v i) u ∧ HasDerivAt (fun y => s u y i) (sv u v i) v) ∧
    ∃ h : ℝ → ℝ → Fin 3 → Fin 2 → Fin 2 → ℝ, (∀ u v i j k, H (fin u) (fin v) i j k = fin (h u v i j k)) ∧
      ∀ u v i, HasDerivAt (fun x => su x v i) (h u v i 0 0) u ∧ HasDerivAt (fun y => su u y i) (h u v i 0 1) v ∧
        HasDerivAt (fun x => sv x v i) (h u v i 1 0) u ∧ HasDerivAt (fun y => sv u y i) (h u v i 1 1) v ∧
        h u v i 0 1 = h u v i 1 0

open Matrix in
/-- The record carries the first fundamental form, and the second one for the unit normal `n`, of the parametrization
`s` at `(u, v)`. -/
def HasForms (rec : HitRecord (Fl F)) (s : ℝ → ℝ → Fin 3 → ℝ) (n : Fin 3 → ℝ) (u v : ℝ) : Prop :=
  ∃ su sv : ℝ → ℝ → Fin 3 → ℝ, (∀ u v i, HasDerivAt (fun x => s x v i) (su u v i) u ∧ HasDerivAt (fun y => s u y i) (sv u v i) v) ∧
    ∃ suu suv svv : Fin 3 → ℝ, (∀ i, HasDerivAt (fun x => su x v i) (suu i) u ∧ HasDerivAt (fun y => su u y i) (suv i) v ∧
        HasDerivAt (fun y => sv u y i) (svv i) v) ∧
      rec.E = fin (su u v ⬝ᵥ su u v) ∧ rec.F = fin (su u v ⬝ᵥ sv u v) ∧ rec.G = fin (sv u v ⬝ᵥ sv u v) ∧
      rec.e = fin (suu ⬝ᵥ n) ∧ rec.f = fin (suv ⬝ᵥ n) ∧ rec.g = fin (svv ⬝ᵥ n) ∧
      n ⬝ᵥ n = 1 ∧ su u v ⬝ᵥ n = 0 ∧ sv u v ⬝ᵥ n = 0

open Matrix in
/-- `K` is the gaussian curvature of the regular parametrization `s` at `(u, v)`: the determinant of the second
fundamental form over that of the first. -/
def GaussianCurvatureAt (s : ℝ → ℝ → Fin 3 → ℝ) (u v K : ℝ) : Prop :=
  ∃ su sv : ℝ → ℝ → Fin 3 → ℝ, (∀ u v i, HasDerivAt (fun x => s x v i) (su u v i) u ∧ HasDerivAt (fun y => s u y i) (sv u v i) v) ∧
    ∃ suu suv svv n : Fin 3 → ℝ, (∀ i, HasDerivAt (fun x => su x v i) (suu i) u ∧ HasDerivAt (fun y => su u y i) (suv i) v ∧
        HasDerivAt (fun y => sv u y i) (svv i) v) ∧
      n ⬝ᵥ n = 1 ∧ su u v ⬝ᵥ n = 0 ∧ sv u v ⬝ᵥ n = 0 ∧
      (su u v ⬝ᵥ su u v) * (sv u v ⬝ᵥ sv u v) - (su u v ⬝ᵥ sv u v) ^ 2 ≠ 0 ∧
      K * ((su u v ⬝ᵥ su u v) * (sv u v ⬝ᵥ sv u v) - (su u v ⬝ᵥ sv u v) ^ 2) =
        (suu ⬝ᵥ n) * (svv ⬝ᵥ n) - (suv ⬝ᵥ n) ^ 2

end DRT
