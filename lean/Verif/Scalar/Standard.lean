import Verif.Scalar.IEEE

/-!
# The standard model of floating-point arithmetic

`Fmt.Standard F`: a finite rounded result differs from the exact one by at most `eps` times the exact result plus
`eps` times the smallest normal number. Every rounding direction of every IEEE format satisfies this; the instances
below are the nearest-even formats of `Scalar/IEEE.lean`, `unbounded p` and `exact64`.

A format with `tiny = 0` is one without underflow: the error is then purely relative.
-/

namespace DRT
open Scalar Fl

/-- Error bound of one rounding; there is no assumption on the direction. -/
class Fmt.Standard (F : Fmt) : Prop extends F.Rounding where
  eps_pos : 0 < F.eps
  eps_le : F.eps ≤ 1 / 256
  tiny_nonneg : 0 ≤ F.tiny
  close : ∀ {x y : ℝ}, rnd F x = fin y → |y - x| ≤ F.eps * |x| + F.eps * F.tiny

/-- A format that never overflows. -/
class Fmt.NoOverflow (F : Fmt) : Prop where
  finite : ∀ x : ℝ, ∃ y : ℝ, rnd F x = fin y

/-- A binary format with neither overflow nor underflow: every rounding error is relative, rounding twice is rounding
once, and the quadruple of a number of the format is a number of the format. -/
class Fmt.Free (F : Fmt) : Prop extends F.Standard, F.NoOverflow where
  tiny_eq : F.tiny = 0
  idem : ∀ {x y : ℝ}, rnd F x = fin y → rnd F y = fin y
  four : ∀ {a : ℝ}, rnd F a = fin a → rnd F (4 * a) = fin (4 * a)

instance (F : Fmt) [F.Exact] : F.NoOverflow := ⟨fun x => ⟨x, rnd_eq x⟩⟩

instance : exact64.Standard where
  eps_pos := Fmt.Exact.eps_pos
  eps_le := by simp only [exact64]; norm_num
  tiny_nonneg := Fmt.Exact.tiny_nonneg
  close {x y} h := by
    rw [rnd_eq, fin_inj] at h
    rw [h, sub_self, abs_zero]
    have h1 : (0 : ℝ) < exact64.eps := Fmt.Exact.eps_pos
    have h2 : (0 : ℝ) ≤ exact64.tiny := Fmt.Exact.tiny_nonneg
    exact add_nonneg (mul_nonneg h1.le (abs_nonneg _)) (mul_nonneg h1.le h2)

instance : exact0.Free where
  eps_pos := Fmt.Exact.eps_pos
  eps_le := by simp only [exact0, exact64]; norm_num
  tiny_nonneg := Fmt.Exact.tiny_nonneg
  close {x y} h := by
    rw [rnd_eq, fin_inj] at h
    rw [h, sub_self, abs_zero]
    have h1 : (0 : ℝ) < exact0.eps := Fmt.Exact.eps_pos
    have h2 : (0 : ℝ) ≤ exact0.tiny := Fmt.Exact.tiny_nonneg
    exact add_nonneg (mul_nonneg h1.le (abs_nonneg _)) (mul_nonneg h1.le h2)
  finite x := ⟨x, rnd_eq x⟩
  tiny_eq := rfl
  idem _ := rnd_eq _
  four _ := rnd_eq _

section ieee
variable {p : ℕ} {emin emax : ℤ}

/-- The error of the rounding of a non-negative number. -/
theorem roundPos_close {x : ℝ} (hx : 0 ≤ x) :
    |roundPos p emin x - x| ≤ 2 ^ (-(p : ℤ)) * x + 2 ^ (-(p : ℤ)) * 2 ^ emin := by
  have h1 := two_zpow_pos (-(p : ℤ))
  have h2 := two_zpow_pos emin
  rcases le_or_gt (2 ^ emin) x with h | h
  · exact (roundPos_rel h).trans (le_add_of_nonneg_right (by positivity))
  · rcases hx.eq_or_lt with rfl | hx0
    · rw [roundPos_zero]; simp; positivity
    have hl : max (Int.log 2 x) emin = emin := by
      refine max_eq_right ?_
      by_contra hc
      push Not at hc
      have : (2 : ℝ) ^ Int.log 2 x ≤ x := by exact_mod_cast Int.zpow_log_le_self (b := 2) (by norm_num) hx0
      have h3 : (2 : ℝ) ^ emin ≤ 2 ^ Int.log 2 x := zpow_le_zpow_right₀ (by norm_num) hc.le
      linarith
    have hq : lastPlace p emin x = emin - (p - 1) := by rw [lastPlace, hl]
    unfold roundPos
    rw [hq]
    have hc := roundEven_close (x / 2 ^ (emin - ((p : ℤ) - 1)))
    have hpos := two_zpow_pos (emin - ((p : ℤ) - 1))
    generalize (roundEven (x / 2 ^ (emin - ((p : ℤ) - 1))) : ℝ) = r at *
    have : r * 2 ^ (emin - ((p : ℤ) - 1)) - x =
        (r - x / 2 ^ (emin - ((p : ℤ) - 1))) * 2 ^ (emin - ((p : ℤ) - 1)) := by field_simp
    rw [this, abs_mul, abs_of_pos hpos]
    calc _ ≤ 1 / 2 * (2 : ℝ) ^ (emin - ((p : ℤ) - 1)) := mul_le_mul_of_nonneg_right hc hpos.le
      _ = 2 ^ (-(p : ℤ)) * 2 ^ emin := by
          rw [show (1 : ℝ) / 2 = 2 ^ (-1 : ℤ) by norm_num, ← zpow_add₀ (by norm_num), ← zpow_add₀ (by norm_num)]
          congr 1; ring
      _ ≤ _ := le_add_of_nonneg_left (by positivity)

theorem ieee_close {x y : ℝ} (h : rnd (ieee p emin emax) x = fin y) :
    |y - x| ≤ 2 ^ (-(p : ℤ)) * |x| + 2 ^ (-(p : ℤ)) * 2 ^ emin := by
  rcases lt_or_ge x 0 with hx | hx
  · rw [ieee_round_neg hx] at h
    split_ifs at h with hc
    · rw [fin_inj] at h
      have := roundPos_close (p := p) (emin := emin) (by linarith : 0 ≤ -x)
      rw [← h, abs_of_neg hx, ← abs_neg]
      convert this using 2
      ring
    · exact absurd h (by simp)
  · rw [ieee_round_nonneg hx] at h
    split_ifs at h with hc
    · rw [fin_inj] at h
      have := roundPos_close (p := p) (emin := emin) hx
      rwa [← h, abs_of_nonneg hx]
    · exact absurd h (by simp)

theorem ieee_standard (hp : 9 ≤ p) (h0 : emin ≤ 0) (h9 : 9 ≤ emax) : (ieee p emin emax).Standard where
  toRounding := ieee_rounding hp h0 h9
  eps_pos := two_zpow_pos _
  eps_le := by
    show (2 : ℝ) ^ (1 - (p : ℤ)) ≤ 1 / 256
    calc (2 : ℝ) ^ (1 - (p : ℤ)) ≤ 2 ^ (-8 : ℤ) := zpow_le_zpow_right₀ (by norm_num) (by omega)
      _ = _ := by norm_num
  tiny_nonneg := (two_zpow_pos _).le
  close {x y} h := by
    show _ ≤ (2 : ℝ) ^ (1 - (p : ℤ)) * _ + (2 : ℝ) ^ (1 - (p : ℤ)) * 2 ^ emin
    have := ieee_close h
    have hm : (2 : ℝ) ^ (-(p : ℤ)) ≤ 2 ^ (1 - (p : ℤ)) := zpow_le_zpow_right₀ (by norm_num) (by omega)
    have h1 := two_zpow_pos emin
    have h2 := abs_nonneg x
    nlinarith

/-- A number of the format is an integer multiple of its last place. -/
theorem roundPos_fixed {x : ℝ} (hx : 0 < x) (h : roundPos p emin x = x) :
    ∃ m : ℕ, m < 2 ^ p ∧ x = m * 2 ^ lastPlace p emin x := by
  have hpos := two_zpow_pos (lastPlace p emin x)
  have hm0 : 0 ≤ roundEven (x / 2 ^ lastPlace p emin x) := by
    have h1 := roundEven_mono (div_nonneg hx.le hpos.le)
    have h0 := roundEven_int 0
    simp at h0
    rwa [h0] at h1
  obtain ⟨m, hm⟩ := Int.eq_ofNat_of_zero_le hm0
  unfold roundPos at h
  rw [hm] at h
  refine ⟨m, ?_, by exact_mod_cast h.symm⟩
  have h2 : x < 2 ^ (Int.log 2 x + 1) := by exact_mod_cast Int.lt_zpow_succ_log_self (b := 2) (by norm_num) x
  have h3 : (2 : ℝ) ^ (Int.log 2 x + 1) ≤ 2 ^ ((p : ℤ) + lastPlace p emin x) := by
    refine zpow_le_zpow_right₀ (by norm_num) ?_
    unfold lastPlace
    have := le_max_left (Int.log 2 x) emin
    omega
  rw [zpow_add₀ (by norm_num) (p : ℤ), zpow_natCast] at h3
  have h4 : (m : ℝ) * 2 ^ lastPlace p emin x < 2 ^ p * 2 ^ lastPlace p emin x := by
    have : ((m : ℤ) : ℝ) = (m : ℝ) := by norm_cast
    rw [this] at h
    rw [h]; exact h2.trans_le h3
  exact_mod_cast lt_of_mul_lt_mul_right h4 hpos.le

theorem roundPos_four {x : ℝ} (hx : 0 ≤ x) (h : roundPos p emin x = x) : roundPos p emin (4 * x) = 4 * x := by
  rcases hx.eq_or_lt with rfl | hx0
  · rw [mul_zero, roundPos_zero]
  obtain ⟨m, hm, he⟩ := roundPos_fixed hx0 h
  have e : 4 * x = m * 2 ^ (lastPlace p emin x + 2) := by
    rw [zpow_add₀ (by norm_num), show ((2 : ℝ) ^ (2 : ℤ)) = 4 by norm_num, ← mul_assoc, ← he]; ring
  rw [e]
  refine roundPos_rep hm ?_
  unfold lastPlace
  have := le_max_right (Int.log 2 x) emin
  omega

/-- In an IEEE format the quadruple of a number is a number, unless it overflows. -/
theorem ieee_four {a : ℝ} (h : rnd (ieee p emin emax) a = fin a) (hb : |4 * a| < 2 ^ (emax + 1)) :
    rnd (ieee p emin emax) (4 * a) = fin (4 * a) := by
  rcases lt_or_ge a 0 with ha | ha
  · rw [ieee_round_neg ha] at h
    rw [ieee_round_neg (by linarith)]
    split_ifs at h with hc
    · rw [fin_inj] at h
      have h4 := roundPos_four (p := p) (emin := emin) (by linarith : 0 ≤ -a) (by linarith)
      rw [show -(4 * a) = 4 * -a by ring, h4, if_pos, fin_inj]
      · ring
      · rwa [abs_of_neg (by linarith), show -(4 * a) = 4 * -a by ring] at hb
    · exact absurd h (by simp)
  · rw [ieee_round_nonneg ha] at h
    rw [ieee_round_nonneg (by linarith)]
    split_ifs at h with hc
    · rw [fin_inj] at h
      rw [roundPos_four ha h, if_pos]
      rwa [abs_of_nonneg (by linarith)] at hb
    · exact absurd h (by simp)

end ieee

instance : binary32.Standard := ieee_standard (by norm_num) (by norm_num) (by norm_num)
instance : binary64.Standard := ieee_standard (by norm_num) (by norm_num) (by norm_num)

/-! ## A format with `p` bits and no limit on the exponent -/

/-- Rounding of a non-negative number to `p` bits, to nearest even, without limits on the exponent. -/
noncomputable def roundFree (p : ℕ) (x : ℝ) : ℝ := roundPos p (Int.log 2 x) x

/-- Round to nearest even with `p` bits and unbounded exponents: binary64 without overflow and underflow is
`unbounded 53`. The smallest positive number does not exist; `min()` is its infimum 0. -/
noncomputable def unbounded (p : ℕ) : Fmt where
  round x := .fin (if x < 0 then -roundFree p |x| else roundFree p |x|)
  eps := 2 ^ (1 - (p : ℤ))
  tiny := 0
  big := 1
  pi := roundFree p Real.pi
  zdiv x := decide (0 < x)

section
variable {p : ℕ}

theorem roundFree_eq {x : ℝ} {e : ℤ} (h : e ≤ Int.log 2 x) : roundFree p x = roundPos p e x := by
  unfold roundFree roundPos lastPlace
  rw [max_self, max_eq_left h]

theorem roundFree_nonneg {x : ℝ} (h : 0 ≤ x) : 0 ≤ roundFree p x := roundPos_nonneg h

theorem roundFree_zero : roundFree p 0 = 0 := roundPos_zero

theorem roundFree_mono (hp : 1 ≤ p) {x y : ℝ} (hx : 0 ≤ x) (h : x ≤ y) : roundFree p x ≤ roundFree p y := by
  rcases hx.eq_or_lt with rfl | hx0
  · rw [roundFree_zero]; exact roundFree_nonneg h
  · have : Int.log 2 x ≤ Int.log 2 y := Int.log_mono_right hx0 h
    rw [roundFree_eq this]
    exact roundPos_mono hp hx h

theorem unbounded_nonneg {x : ℝ} (h : 0 ≤ x) : rnd (unbounded p) x = fin (roundFree p x) := by
  show fin (if x < 0 then -roundFree p |x| else roundFree p |x|) = _
  rw [abs_of_nonneg h, if_neg (not_lt.mpr h)]

theorem unbounded_neg {x : ℝ} (h : x < 0) : rnd (unbounded p) x = fin (-roundFree p (-x)) := by
  show fin (if x < 0 then -roundFree p |x| else roundFree p |x|) = _
  rw [abs_of_neg h, if_pos h]

theorem roundFree_close {x : ℝ} (hx : 0 ≤ x) : |roundFree p x - x| ≤ 2 ^ (-(p : ℤ)) * x := by
  rcases hx.eq_or_lt with rfl | hx0
  · rw [roundFree_zero]; simp
  · exact roundPos_rel (by exact_mod_cast Int.zpow_log_le_self (b := 2) (by norm_num) hx0)

theorem unbounded_standard (hp : 9 ≤ p) : (unbounded p).Standard where
  mono {x y} h := by
    rcases lt_or_ge x 0 with hx | hx
    · rw [unbounded_neg hx]
      have h1 : 0 ≤ roundFree p (-x) := roundFree_nonneg (by linarith)
      rcases lt_or_ge y 0 with hy | hy
      · rw [unbounded_neg hy, le_fin, decide_eq_true_eq]
        have := roundFree_mono (by omega : 1 ≤ p) (by linarith : 0 ≤ -y) (neg_le_neg h)
        linarith
      · rw [unbounded_nonneg hy, le_fin, decide_eq_true_eq]
        have := roundFree_nonneg (p := p) hy
        linarith
    · rw [unbounded_nonneg hx, unbounded_nonneg (hx.trans h), le_fin, decide_eq_true_eq]
      exact roundFree_mono (by omega) hx h
  small n hn := by
    rw [unbounded_nonneg n.cast_nonneg, fin_inj]
    rcases Nat.eq_zero_or_pos n with rfl | hn0
    · simp [roundFree_zero]
    · have h0 : (0 : ℤ) ≤ Int.log 2 (n : ℝ) := by
        rw [Int.log_natCast]; positivity
      rw [roundFree_eq h0]
      have := roundPos_rep (p := p) (emin := 0) (m := n) (k := 0)
        (lt_of_le_of_lt hn ((by norm_num : 256 < 2 ^ 9).trans_le (Nat.pow_le_pow_right (by norm_num) hp))) (by omega)
      simpa using this
  eps_pos := two_zpow_pos _
  eps_le := by
    show (2 : ℝ) ^ (1 - (p : ℤ)) ≤ 1 / 256
    calc (2 : ℝ) ^ (1 - (p : ℤ)) ≤ 2 ^ (-8 : ℤ) := zpow_le_zpow_right₀ (by norm_num) (by omega)
      _ = _ := by norm_num
  tiny_nonneg := le_refl _
  close {x y} h := by
    show _ ≤ (2 : ℝ) ^ (1 - (p : ℤ)) * _ + (2 : ℝ) ^ (1 - (p : ℤ)) * 0
    have hm : (2 : ℝ) ^ (-(p : ℤ)) ≤ 2 ^ (1 - (p : ℤ)) := zpow_le_zpow_right₀ (by norm_num) (by omega)
    rw [mul_zero, add_zero]
    refine le_trans ?_ (mul_le_mul_of_nonneg_right hm (abs_nonneg x))
    rcases lt_or_ge x 0 with hx | hx
    · rw [unbounded_neg hx, fin_inj] at h
      have := roundFree_close (p := p) (by linarith : 0 ≤ -x)
      rw [← h, abs_of_neg hx, ← abs_neg]
      rwa [show -(-roundFree p (-x) - x) = roundFree p (-x) - -x by ring]
    · rw [unbounded_nonneg hx, fin_inj] at h
      have := roundFree_close (p := p) hx
      rwa [← h, abs_of_nonneg hx]

end

instance : (unbounded 53).Standard := unbounded_standard (by norm_num)
instance (p : ℕ) : (unbounded p).NoOverflow := ⟨fun _ => ⟨_, rfl⟩⟩
theorem roundFree_idem {p : ℕ} (hp : 1 ≤ p) {x : ℝ} (hx : 0 ≤ x) : roundFree p (roundFree p x) = roundFree p x := by
  rcases hx.eq_or_lt with rfl | hx0
  · rw [roundFree_zero, roundFree_zero]
  have hpos := two_zpow_pos (Int.log 2 x)
  have hge : (2 : ℝ) ^ Int.log 2 x ≤ roundFree p x := by
    have h1 : (2 : ℝ) ^ Int.log 2 x ≤ x := by exact_mod_cast Int.zpow_log_le_self (b := 2) (by norm_num) hx0
    have h2 := roundPos_mono (emin := Int.log 2 x) hp hpos.le h1
    rwa [roundPos_pow hp (by omega)] at h2
  have hl : Int.log 2 x ≤ Int.log 2 (roundFree p x) := by
    have := Int.log_mono_right (b := 2) hpos hge
    have h3 := Int.log_zpow (R := ℝ) (b := 2) (by norm_num) (Int.log 2 x)
    push_cast at h3
    rwa [h3] at this
  rw [roundFree_eq hl]
  unfold roundFree
  rw [show roundPos p (Int.log 2 x) x = roundEven (x / 2 ^ lastPlace p (Int.log 2 x) x) * 2 ^ lastPlace p (Int.log 2 x) x from rfl]
  have hm0 : 0 ≤ roundEven (x / 2 ^ lastPlace p (Int.log 2 x) x) := by
    have h1 := roundEven_mono (div_nonneg hx (two_zpow_pos (lastPlace p (Int.log 2 x) x)).le)
    have h0 := roundEven_int 0
    simp at h0
    rwa [h0] at h1
  have hlp : lastPlace p (Int.log 2 x) x = Int.log 2 x - (p - 1) := by unfold lastPlace; rw [max_self]
  have hm1 : roundEven (x / 2 ^ lastPlace p (Int.log 2 x) x) ≤ 2 ^ p := by
    have h2 : x < 2 ^ (Int.log 2 x + 1) := by exact_mod_cast Int.lt_zpow_succ_log_self (b := 2) (by norm_num) x
    have h3 : x / 2 ^ lastPlace p (Int.log 2 x) x ≤ ((2 ^ p : ℤ) : ℝ) := by
      rw [div_le_iff₀ (two_zpow_pos _), hlp]
      refine h2.le.trans_eq ?_
      push_cast
      rw [← zpow_natCast, ← zpow_add₀ (by norm_num)]
      congr 1; ring
    have h4 := roundEven_mono h3
    rwa [roundEven_int] at h4
  obtain ⟨m, hm⟩ := Int.eq_ofNat_of_zero_le hm0
  rw [hm] at hm1 ⊢
  rw [hlp]
  have hm1' : m ≤ 2 ^ p := by exact_mod_cast hm1
  rcases hm1'.lt_or_eq with h | h
  · exact_mod_cast roundPos_rep h (le_refl _)
  · have e : ((m : ℤ) : ℝ) * 2 ^ (Int.log 2 x - ((p : ℤ) - 1)) = ((1 : ℕ) : ℝ) * 2 ^ (Int.log 2 x + 1) := by
      rw [h]; push_cast
      rw [one_mul, ← zpow_natCast, ← zpow_add₀ (by norm_num)]
      congr 1; ring
    rw [e]
    exact roundPos_rep (Nat.one_lt_two_pow (by omega)) (by omega)

theorem unbounded_free {p : ℕ} (hp : 9 ≤ p) : (unbounded p).Free :=
  { unbounded_standard hp, (inferInstance : (unbounded p).NoOverflow) with
    tiny_eq := rfl
    idem := by
      intro x y h
      rcases lt_or_ge x 0 with hx | hx
      · rw [unbounded_neg hx, fin_inj] at h
        have h1 := roundFree_nonneg (p := p) (by linarith : 0 ≤ -x)
        have h2 := roundFree_idem (by omega : 1 ≤ p) (by linarith : 0 ≤ -x)
        rcases h1.eq_or_lt with h3 | h3
        · have := (unbounded_standard hp).toRounding
          rw [← h, ← h3, neg_zero, rnd_zero]
        · rw [← h, unbounded_neg (by linarith), neg_neg, h2]
      · rw [unbounded_nonneg hx, fin_inj] at h
        rw [← h, unbounded_nonneg (roundFree_nonneg hx), roundFree_idem (by omega) hx]
    four := by
      have key : ∀ x : ℝ, 0 ≤ x → roundFree p x = x → roundFree p (4 * x) = 4 * x := by
        intro x hx h
        rcases hx.eq_or_lt with rfl | hx0
        · rw [mul_zero, roundFree_zero]
        · have hl : Int.log 2 x ≤ Int.log 2 (4 * x) := Int.log_mono_right hx0 (by linarith)
          rw [roundFree_eq hl]
          exact roundPos_four hx h
      intro a h
      rcases lt_or_ge a 0 with ha | ha
      · rw [unbounded_neg ha, fin_inj] at h
        rw [unbounded_neg (by linarith), fin_inj, show -(4 * a) = 4 * -a by ring,
          key (-a) (by linarith) (by linarith)]
        ring
      · rw [unbounded_nonneg ha, fin_inj] at h
        rw [unbounded_nonneg (by linarith), fin_inj, key a ha h] }
instance : (unbounded 53).Free := unbounded_free (by norm_num)

namespace Fl
variable {F : Fmt}

/-! ## A finite result has finite operands -/

theorem add_eq_fin {x y : Fl F} {z : ℝ} (h : x + y = fin z) :
    ∃ a b : ℝ, x = fin a ∧ y = fin b ∧ rnd F (a + b) = fin z := by
  cases x with
  | nan => simp at h
  | ninf => cases y with
    | nan => simp at h
    | ninf => simp at h
    | fin b => simp at h
    | pinf => simp at h
  | fin a => cases y with
    | nan => simp at h
    | ninf => simp at h
    | fin b => exact ⟨a, b, rfl, rfl, h⟩
    | pinf => simp at h
  | pinf => cases y with
    | nan => simp at h
    | ninf => simp at h
    | fin b => simp at h
    | pinf => simp at h

theorem neg_eq_fin {x : Fl F} {z : ℝ} (h : -x = fin z) : x = fin (-z) := by
  cases x with
  | nan => simp at h
  | ninf => simp at h
  | fin a => rw [Fl.neg_fin, fin_inj] at h; rw [← h, neg_neg]
  | pinf => simp at h

theorem sub_eq_fin {x y : Fl F} {z : ℝ} (h : x - y = fin z) :
    ∃ a b : ℝ, x = fin a ∧ y = fin b ∧ rnd F (a - b) = fin z := by
  rw [Fl.sub_eq] at h
  obtain ⟨a, b, rfl, hb, h⟩ := add_eq_fin h
  exact ⟨a, -b, rfl, neg_eq_fin hb, by rwa [sub_neg_eq_add]⟩

theorem infOf_ne_fin (a b : ℝ) : (infOf a : Fl F) ≠ fin b := by
  intro h
  by_cases ha : 0 < a
  · rw [show (infOf a : Fl F) = pinf from if_pos ha] at h
    simp at h
  · rw [show (infOf a : Fl F) = ninf from if_neg ha] at h
    simp at h

theorem mul_eq_fin {x y : Fl F} {z : ℝ} (h : x * y = fin z) :
    ∃ a b : ℝ, x = fin a ∧ y = fin b ∧ rnd F (a * b) = fin z := by
  cases x with
  | nan => simp at h
  | ninf => cases y with
    | nan => simp at h
    | ninf => simp at h
    | fin b => rw [ninf_mul_fin] at h; split_ifs at h <;> [simp at h; exact absurd h (infOf_ne_fin _ _)]
    | pinf => simp at h
  | fin a => cases y with
    | nan => simp at h
    | ninf => rw [fin_mul_ninf] at h; split_ifs at h <;> [simp at h; exact absurd h (infOf_ne_fin _ _)]
    | fin b => exact ⟨a, b, rfl, rfl, h⟩
    | pinf => rw [fin_mul_pinf] at h; split_ifs at h <;> [simp at h; exact absurd h (infOf_ne_fin _ _)]
  | pinf => cases y with
    | nan => simp at h
    | ninf => simp at h
    | fin b => rw [pinf_mul_fin] at h; split_ifs at h <;> [simp at h; exact absurd h (infOf_ne_fin _ _)]
    | pinf => simp at h

theorem fma_eq_fin {x y w : Fl F} {z : ℝ} (h : Scalar.fma x y w = fin z) :
    ∃ a b c : ℝ, x = fin a ∧ y = fin b ∧ w = fin c ∧ rnd F (a * b + c) = fin z := by
  have key : (∃ a b c : ℝ, x = fin a ∧ y = fin b ∧ w = fin c) ∨ Scalar.fma x y w = x * y + w := by
    cases x with
    | nan => right; rfl
    | ninf => right; rfl
    | pinf => right; rfl
    | fin a => cases y with
      | nan => right; rfl
      | ninf => right; rfl
      | pinf => right; rfl
      | fin b => cases w with
        | nan => right; rfl
        | ninf => right; rfl
        | pinf => right; rfl
        | fin c => left; exact ⟨a, b, c, rfl, rfl, rfl⟩
  rcases key with ⟨a, b, c, rfl, rfl, rfl⟩ | h'
  · exact ⟨a, b, c, rfl, rfl, rfl, h⟩
  · have h2 := h
    rw [h'] at h2
    obtain ⟨p, c, hp, rfl, -⟩ := add_eq_fin h2
    obtain ⟨a, b, rfl, rfl, -⟩ := mul_eq_fin hp
    exact ⟨a, b, c, rfl, rfl, rfl, h⟩

theorem sqrt_eq_fin {x : Fl F} {z : ℝ} (h : Scalar.sqrt x = fin z) :
    ∃ a : ℝ, 0 ≤ a ∧ x = fin a ∧ rnd F (Real.sqrt a) = fin z := by
  cases x with
  | nan => simp at h
  | ninf => simp at h
  | pinf => simp at h
  | fin a =>
    by_cases ha : a < 0
    · rw [sqrt_neg ha] at h; simp at h
    · refine ⟨a, not_lt.mp ha, rfl, ?_⟩
      have : Scalar.sqrt (fin a : Fl F) = rnd F (Real.sqrt a) := if_neg ha
      rw [← this, h]

end Fl
end DRT
