import Verif.Scalar.Lemmas

/-!
# Roundings

`Fmt.Rounding F` collects what every IEEE rounding direction satisfies: it is monotone, it keeps zero and the
small integers, and it never invents a NaN. Theorems with this hypothesis hold for every rounding direction
and every precision of at least 9 bits.
-/

namespace DRT
open Scalar Fl

/-- A rounding function that is monotone and exact on small integers. -/
class Fmt.Rounding (F : Fmt) : Prop where
  mono : ∀ {x y : ℝ}, x ≤ y → Scalar.le (rnd F x) (rnd F y) = true
  small : ∀ n : ℕ, n ≤ 256 → rnd F (n : ℝ) = fin (n : ℝ)

instance (F : Fmt) [F.Exact] : F.Rounding where
  mono h := by simpa [rnd_eq] using h
  small n _ := rnd_eq _

namespace Fl
variable {F : Fmt} [F.Rounding]

theorem rnd_zero : rnd F 0 = fin 0 := by simpa using Fmt.Rounding.small (F := F) 0 (by norm_num)
theorem rnd_one : rnd F 1 = fin 1 := by simpa using Fmt.Rounding.small (F := F) 1 (by norm_num)
theorem lit_small (n : ℕ) (h : n ≤ 256) : (@OfNat.ofNat (Fl F) n (Scalar.instOfNat n)) = fin (n : ℝ) := by
  show rnd F (((n : ℚ)) : ℝ) = _
  rw [Rat.cast_natCast, Fmt.Rounding.small n h]
theorem rzero : (0 : Fl F) = fin 0 := by rw [lit_small 0 (by norm_num)]; simp
theorem rone : (1 : Fl F) = fin 1 := by rw [lit_small 1 (by norm_num)]; simp
theorem rnd_nonneg {x : ℝ} (h : 0 ≤ x) : Scalar.le (fin 0) (rnd F x) = true := by
  rw [← rnd_zero (F := F)]; exact Fmt.Rounding.mono h
theorem rnd_nonpos {x : ℝ} (h : x ≤ 0) : Scalar.le (rnd F x) (fin 0) = true := by
  rw [← rnd_zero (F := F)]; exact Fmt.Rounding.mono h
theorem rnd_not_nan (x : ℝ) : isNaN (rnd F x) = false := by
  have h := Fmt.Rounding.mono (F := F) (le_refl x)
  exact not_nan_of_le_left h
theorem sqrt_nonneg_or_nan (x : Fl F) : Scalar.sqrt x = Fl.nan ∨ Scalar.le (fin 0) (Scalar.sqrt x) = true := by
  cases x with
  | nan => simp
  | ninf => simp
  | pinf => simp
  | fin r =>
    by_cases h : r < 0
    · left; exact sqrt_neg h
    · right
      show Scalar.le (fin 0) (if r < 0 then Fl.nan else rnd F (Real.sqrt r)) = true
      rw [if_neg h]
      exact rnd_nonneg (Real.sqrt_nonneg r)

end Fl

/-- Fixed-point rounding toward minus infinity with 8 fractional bits: a format that really rounds. -/
noncomputable def floor8 : Fmt where
  round x := .fin (⌊x * 256⌋ / 256)
  eps := 1 / 256
  tiny := 1 / 256
  big := 1000
  pi := 3
  zdiv x := decide (0 < x)

instance : floor8.Rounding where
  mono {x y} h := by
    show Scalar.le (fin _ : Fl floor8) (fin _) = true
    rw [le_fin, decide_eq_true_eq]
    have : ⌊x * 256⌋ ≤ ⌊y * 256⌋ := Int.floor_le_floor (by linarith)
    have h2 : ((⌊x * 256⌋ : ℤ) : ℝ) ≤ (⌊y * 256⌋ : ℤ) := Int.cast_le.mpr this
    linarith
  small n _ := by
    show (fin ((⌊(n : ℝ) * 256⌋ : ℝ) / 256) : Fl floor8) = fin (n : ℝ)
    rw [fin_inj]
    have : ((n : ℝ) * 256) = ((n * 256 : ℕ) : ℝ) := by push_cast; ring
    rw [this, Int.floor_natCast]
    push_cast; ring

/-- Exact arithmetic whose `numeric_limits<Real>::min()` is idealised to 0. -/
noncomputable def exact0 : Fmt := { exact64 with tiny := 0 }

instance : exact0.Exact where
  round_eq _ := rfl
  pi_eq := rfl
  eps_pos := by simp [exact0, exact64]
  eps_lt := by simp only [exact0, exact64]; norm_num
  tiny_nonneg := by simp [exact0]
  tiny_lt := by simp [exact0]
  big_pos := by simp only [exact0, exact64]; norm_num

end DRT
