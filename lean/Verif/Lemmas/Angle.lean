import Verif.Lemmas.Vec
import Mathlib.Analysis.SpecialFunctions.Complex.Arg
import Mathlib.Analysis.SpecialFunctions.Trigonometric.Inverse
import Mathlib.Analysis.SpecialFunctions.Trigonometric.Deriv

/-! # Polar angles as the surfaces compute them -/

namespace DRT
open Scalar Fl

variable {F : Fmt}

theorem atan2_polar (x y : ℝ) :
    Real.sqrt (x ^ 2 + y ^ 2) * Real.cos (realAtan2 y x) = x ∧ Real.sqrt (x ^ 2 + y ^ 2) * Real.sin (realAtan2 y x) = y := by
  have hn : ‖Complex.mk x y‖ = Real.sqrt (x ^ 2 + y ^ 2) := by
    rw [Complex.norm_def, Complex.normSq_mk]; ring_nf
  constructor
  · rw [← hn]; exact Complex.norm_mul_cos_arg _
  · rw [← hn]; exact Complex.norm_mul_sin_arg _

/-- The common idiom `u = atan2(y, x)/(2π); if (u < 0) u += 1`, for an angle `a`. -/
theorem turn_spec [F.Exact] {a : ℝ} (h1 : -Real.pi < a) (h2 : a ≤ Real.pi) :
    ∃ u : ℝ, (if Scalar.lt ((fin a : Fl F) / (2 * pi)) 0 then (fin a : Fl F) / (2 * pi) + 1 else (fin a : Fl F) / (2 * pi)) = fin u ∧
      0 ≤ u ∧ u < 1 ∧ Real.cos (2 * Real.pi * u) = Real.cos a ∧ Real.sin (2 * Real.pi * u) = Real.sin a ∧
      (u = a / (2 * Real.pi) ∨ u = a / (2 * Real.pi) + 1) := by
  have hp := Real.pi_pos
  have h2p : 2 * Real.pi ≠ 0 := by positivity
  have hq : (fin a : Fl F) / (2 * pi) = fin (a / (2 * Real.pi)) := by
    rw [pi_def, ofNat_def, mul_fin]
    push_cast
    rw [div_fin _ h2p]
  rw [hq, ofNat_zero, ofNat_one, lt_fin, add_fin]
  by_cases h : a / (2 * Real.pi) < 0
  · refine ⟨a / (2 * Real.pi) + 1, by rw [if_pos (by simpa using h)], ?_, by linarith, ?_, ?_, Or.inr rfl⟩
    · have : -1 ≤ a / (2 * Real.pi) := by rw [le_div_iff₀ (by positivity)]; linarith
      linarith
    · rw [show 2 * Real.pi * (a / (2 * Real.pi) + 1) = a + 2 * Real.pi by field_simp, Real.cos_add_two_pi]
    · rw [show 2 * Real.pi * (a / (2 * Real.pi) + 1) = a + 2 * Real.pi by field_simp, Real.sin_add_two_pi]
  · refine ⟨a / (2 * Real.pi), by rw [if_neg (by simpa using h)], not_lt.mp h, ?_, ?_, ?_, Or.inl rfl⟩
    · rw [div_lt_one (by positivity)]; linarith
    · rw [mul_div_cancel₀ _ h2p]
    · rw [mul_div_cancel₀ _ h2p]

theorem turn_atan2 [F.Exact] (y x : ℝ) :
    ∃ u : ℝ, (if Scalar.lt (atan2 (fin y : Fl F) (fin x) / (2 * pi)) 0 then atan2 (fin y : Fl F) (fin x) / (2 * pi) + 1
        else atan2 (fin y : Fl F) (fin x) / (2 * pi)) = fin u ∧
      0 ≤ u ∧ u < 1 ∧ Real.sqrt (x ^ 2 + y ^ 2) * Real.cos (2 * Real.pi * u) = x ∧
      Real.sqrt (x ^ 2 + y ^ 2) * Real.sin (2 * Real.pi * u) = y := by
  rw [atan2_fin]
  obtain ⟨u, h, h0, h1, hc, hs, -⟩ := turn_spec (F := F) (Complex.neg_pi_lt_arg ⟨x, y⟩) (Complex.arg_le_pi ⟨x, y⟩)
  obtain ⟨hx, hy⟩ := atan2_polar x y
  refine ⟨u, h, h0, h1, ?_, ?_⟩
  · rw [hc]; exact hx
  · rw [hs]; exact hy

/-- The idiom `v = acos(z)/π`. -/
theorem acos_turn [F.Exact] {z : ℝ} (h1 : -1 ≤ z) (h2 : z ≤ 1) :
    (acos (fin z : Fl F) / pi) = fin (Real.arccos z / Real.pi) := by
  rw [acos_fin h1 h2, pi_def, div_fin _ Real.pi_ne_zero]

theorem hasDerivAt_cos_mul (k u : ℝ) : HasDerivAt (fun x => Real.cos (k * x)) (-(k * Real.sin (k * u))) u :=
  (((hasDerivAt_id u).const_mul k).cos).congr_deriv (by simp; ring)

theorem hasDerivAt_sin_mul (k u : ℝ) : HasDerivAt (fun x => Real.sin (k * x)) (k * Real.cos (k * u)) u :=
  (((hasDerivAt_id u).const_mul k).sin).congr_deriv (by simp; ring)

end DRT
