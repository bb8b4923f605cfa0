import Mathlib.Analysis.SpecialFunctions.Trigonometric.Inverse
import Mathlib.Analysis.SpecialFunctions.Pow.Real
import Mathlib.Tactic.Linarith
import Mathlib.Tactic.LinearCombination
import Mathlib.Tactic.FieldSimp
import Mathlib.Tactic.Ring
import Verif.Scalar.Ext

/-! # Root formulas over the reals -/

namespace DRT
open Fl

theorem quad_factor {a b c x y : ℝ} (hs : a * (x + y) = -b) (hp : a * (x * y) = c) (z : ℝ) :
    a * z ^ 2 + b * z + c = a * (z - x) * (z - y) := by
  linear_combination z * hs - hp

theorem quad_root_iff {a b c x y : ℝ} (ha : a ≠ 0) (hs : a * (x + y) = -b) (hp : a * (x * y) = c) (z : ℝ) :
    a * z ^ 2 + b * z + c = 0 ↔ z = x ∨ z = y := by
  rw [quad_factor hs hp, mul_assoc, mul_eq_zero, mul_eq_zero, sub_eq_zero, sub_eq_zero]
  simp [ha]

theorem quad_no_root {a b c : ℝ} (h : b ^ 2 - 4 * a * c < 0) (z : ℝ) : a * z ^ 2 + b * z + c ≠ 0 := by
  intro hz
  have : b ^ 2 - 4 * a * c = (2 * a * z + b) ^ 2 := by linear_combination -4 * a * hz
  rw [this] at h
  exact absurd (sq_nonneg _) (not_le.mpr h)

/-- The stable quadratic formula: both values are roots. -/
theorem stable_quad {a b c : ℝ} (ha : a ≠ 0) {q s : ℝ} (hq : q ≠ 0) (hs : s ^ 2 = b ^ 2 - 4 * a * c)
    (hqs : q = -(b + s) / 2) : a * (q / a + c / q) = -b ∧ a * (q / a * (c / q)) = c := by
  constructor
  · field_simp
    rw [hqs]; linear_combination hs / 4
  · field_simp

theorem realCbrt_pow3 (x : ℝ) : realCbrt x ^ 3 = x := by
  unfold realCbrt
  have key : ∀ y : ℝ, 0 ≤ y → (y ^ ((1 : ℝ) / 3)) ^ 3 = y := by
    intro y hy
    rw [← Real.rpow_natCast, ← Real.rpow_mul hy]; norm_num
  split
  · next h => exact key x h
  · next h =>
    have := key (-x) (by linarith)
    linear_combination -this

theorem realCbrt_pos {x : ℝ} (h : 0 < x) : 0 < realCbrt x := by
  unfold realCbrt; rw [if_pos h.le]; exact Real.rpow_pos_of_pos h _

theorem realCbrt_zero : realCbrt 0 = 0 := by
  unfold realCbrt; simp

/-- Trigonometric solution of the depressed cubic `y³ - 3Qy + 2R` with `R² < Q³`. -/
theorem trig_cubic {Q R : ℝ} (h : R * R < Q * Q * Q) (y : ℝ) :
    y ^ 3 - 3 * Q * y + 2 * R =
      (y - (-2) * √Q * Real.cos (Real.arccos (R / (Q * √Q)) / 3))
      * (y - (-2) * √Q * Real.cos ((Real.arccos (R / (Q * √Q)) + 2 * Real.pi) / 3))
      * (y - (-2) * √Q * Real.cos ((Real.arccos (R / (Q * √Q)) - 2 * Real.pi) / 3)) := by
  have hQ : 0 < Q := by
    by_contra hq
    have : Q * Q * Q ≤ 0 := by
      have h1 : 0 ≤ Q * Q := mul_self_nonneg Q
      nlinarith
    nlinarith [mul_self_nonneg R]
  have hrt : 0 < √Q := Real.sqrt_pos.mpr hQ
  have hsq : √Q ^ 2 = Q := Real.sq_sqrt hQ.le
  have hD : 0 < Q * √Q := by positivity
  have hD2 : (Q * √Q) ^ 2 = Q * Q * Q := by rw [mul_pow, hsq]; ring
  have habs : |R| ≤ Q * √Q := by
    apply abs_le_of_sq_le_sq _ hD.le
    rw [hD2]; nlinarith
  have hx := abs_le.mp habs
  have hcos : Real.cos (Real.arccos (R / (Q * √Q))) = R / (Q * √Q) := by
    apply Real.cos_arccos
    · rw [le_div_iff₀ hD]; linarith
    · rw [div_le_one hD]; linarith
  generalize Real.arccos (R / (Q * √Q)) = θ at *
  have hR : R = Q * √Q * (4 * Real.cos (θ / 3) ^ 3 - 3 * Real.cos (θ / 3)) := by
    rw [← Real.cos_three_mul, show 3 * (θ / 3) = θ by ring, hcos]
    field_simp
  have e1 : (θ + 2 * Real.pi) / 3 = θ / 3 + (Real.pi - Real.pi / 3) := by ring
  have e2 : (θ - 2 * Real.pi) / 3 = θ / 3 - (Real.pi - Real.pi / 3) := by ring
  have c3 : Real.cos (Real.pi - Real.pi / 3) = -(1 / 2) := by rw [Real.cos_pi_sub, Real.cos_pi_div_three]
  have s3 : Real.sin (Real.pi - Real.pi / 3) = √3 / 2 := by rw [Real.sin_pi_sub, Real.sin_pi_div_three]
  rw [e1, e2, Real.cos_add, Real.cos_sub (θ / 3), c3, s3, hR]
  have hcs := Real.sin_sq_add_cos_sq (θ / 3)
  have h3 : √3 ^ 2 = (3 : ℝ) := Real.sq_sqrt (by norm_num)
  generalize Real.cos (θ / 3) = c at *
  generalize Real.sin (θ / 3) = s at *
  generalize √3 = k at *
  generalize √Q = w at *
  subst hsq
  have hs : s ^ 2 = 1 - c ^ 2 := by linarith
  have expand : (y - -2 * w * c) * (y - -2 * w * (c * -(1 / 2) - s * (k / 2))) * (y - -2 * w * (c * -(1 / 2) + s * (k / 2)))
      = y ^ 3 - w ^ 2 * y * (3 * c ^ 2 + k ^ 2 * s ^ 2) + 2 * w ^ 3 * c * (c ^ 2 - k ^ 2 * s ^ 2) := by ring
  rw [expand, h3, hs]
  ring

/-- Cardano's value is a root. -/
theorem cardano_root {Q R A : ℝ} (hA : A ≠ 0) (h : A ^ 6 + 2 * R * A ^ 3 + Q ^ 3 = 0) :
    (A + Q / A) ^ 3 - 3 * Q * (A + Q / A) + 2 * R = 0 := by
  have : ((A + Q / A) ^ 3 - 3 * Q * (A + Q / A) + 2 * R) * A ^ 3 = 0 := by
    have e : ((A + Q / A) ^ 3 - 3 * Q * (A + Q / A) + 2 * R) * A ^ 3 = A ^ 6 + 2 * R * A ^ 3 + Q ^ 3 := by
      field_simp; ring
    rw [e, h]
  rcases mul_eq_zero.mp this with h | h
  · exact h
  · exact absurd h (pow_ne_zero _ hA)

/-- Other real roots of the depressed cubic besides Cardano's value are double roots, and there are
none if `R² > Q³`. -/
theorem cardano_others {Q R A y : ℝ} (hA : A ≠ 0) (h : A ^ 6 + 2 * R * A ^ 3 + Q ^ 3 = 0)
    (hy : y ^ 3 - 3 * Q * y + 2 * R = 0) : y = A + Q / A ∨ (A ^ 2 = Q ∧ y ^ 2 = Q) := by
  have hr := cardano_root hA h
  by_cases hne : y = A + Q / A
  · exact Or.inl hne
  right
  obtain ⟨w, hw⟩ : ∃ w, w = A + Q / A := ⟨_, rfl⟩
  rw [← hw] at hr hne
  have hfac : (y - w) * (y ^ 2 + w * y + w ^ 2 - 3 * Q) = 0 := by linear_combination hy - hr
  have h2 : y ^ 2 + w * y + w ^ 2 - 3 * Q = 0 := by
    rcases mul_eq_zero.mp hfac with h | h
    · exact absurd (by linarith) hne
    · exact h
  have h3 : (2 * y + w) ^ 2 + 3 * (A - Q / A) ^ 2 = 0 := by
    have : (A - Q / A) ^ 2 = w ^ 2 - 4 * Q := by rw [hw]; field_simp; ring
    rw [this]; linear_combination 4 * h2
  have h4 : A - Q / A = 0 := by
    have := sq_nonneg (2 * y + w); have := sq_nonneg (A - Q / A)
    exact pow_eq_zero_iff (two_ne_zero) |>.mp (by linarith)
  have h5 : 2 * y + w = 0 := by
    have := sq_nonneg (2 * y + w); have := sq_nonneg (A - Q / A)
    exact pow_eq_zero_iff (two_ne_zero) |>.mp (by linarith)
  have hAQ : A ^ 2 = Q := by field_simp at h4; linarith
  refine ⟨hAQ, ?_⟩
  have : w = 2 * A := by rw [hw, ← hAQ]; field_simp; norm_num
  have : y = -A := by linarith
  rw [this, neg_sq, hAQ]

end DRT
