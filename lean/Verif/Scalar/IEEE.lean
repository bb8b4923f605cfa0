import Verif.Scalar.Rounding
import Mathlib.Data.Int.Log
import Mathlib.Analysis.SpecialFunctions.Trigonometric.Bounds

/-!
# binary32 and binary64

IEEE-754 rounding to nearest, ties to even, with gradual underflow and overflow to infinity. These are concrete
formats `F`, so that theorems about all formats or all roundings can be read for `float` and `double`.
-/

namespace DRT
open Scalar Fl

/-- Nearest integer, ties to even. -/
noncomputable def roundEven (t : ℝ) : ℤ :=
  if t - ⌊t⌋ < 1 / 2 then ⌊t⌋
  else if 1 / 2 < t - ⌊t⌋ then ⌊t⌋ + 1
  else if Even ⌊t⌋ then ⌊t⌋ else ⌊t⌋ + 1

theorem floor_le_roundEven (t : ℝ) : ⌊t⌋ ≤ roundEven t := by
  unfold roundEven; split_ifs <;> omega
theorem roundEven_le_floor (t : ℝ) : roundEven t ≤ ⌊t⌋ + 1 := by
  unfold roundEven; split_ifs <;> omega
theorem roundEven_int (n : ℤ) : roundEven n = n := by
  unfold roundEven; simp
theorem roundEven_mono {s t : ℝ} (h : s ≤ t) : roundEven s ≤ roundEven t := by
  rcases lt_or_eq_of_le (Int.floor_le_floor h) with h1 | h1
  · have := roundEven_le_floor s; have := floor_le_roundEven t; omega
  · unfold roundEven
    rw [h1]
    split_ifs <;> first | omega | (exfalso; linarith)
theorem roundEven_close (t : ℝ) : |(roundEven t : ℝ) - t| ≤ 1 / 2 := by
  have h1 := Int.floor_le t
  have h2 := Int.lt_floor_add_one t
  unfold roundEven
  rw [abs_le]
  split_ifs <;> push_cast <;> constructor <;> linarith

/-- The exponent of the last place of a positive number `x` in a format with `p` bits and least exponent `emin`. -/
noncomputable def lastPlace (p : ℕ) (emin : ℤ) (x : ℝ) : ℤ := max (Int.log 2 x) emin - (p - 1)

/-- Rounding of a non-negative number, before the overflow test. -/
noncomputable def roundPos (p : ℕ) (emin : ℤ) (x : ℝ) : ℝ :=
  roundEven (x / 2 ^ lastPlace p emin x) * 2 ^ lastPlace p emin x

/-- The IEEE format with `p` bits of precision and exponents `emin ≤ e ≤ emax`, rounding to nearest even. -/
noncomputable def ieee (p : ℕ) (emin emax : ℤ) : Fmt where
  round x :=
    if roundPos p emin |x| < 2 ^ (emax + 1) then .fin (if x < 0 then -roundPos p emin |x| else roundPos p emin |x|)
    else if x < 0 then .ninf else .pinf
  eps := 2 ^ (1 - (p : ℤ))
  tiny := 2 ^ emin
  big := (2 - 2 ^ (1 - (p : ℤ))) * 2 ^ emax
  pi := roundPos p emin Real.pi
  zdiv x := decide (0 < x)

/-- `float` -/
noncomputable def binary32 : Fmt := ieee 24 (-126) 127
/-- `double` -/
noncomputable def binary64 : Fmt := ieee 53 (-1022) 1023

section
variable {p : ℕ} {emin emax : ℤ}

theorem two_zpow_pos (k : ℤ) : (0 : ℝ) < 2 ^ k := zpow_pos (by norm_num) k

theorem roundPos_zero : roundPos p emin 0 = 0 := by
  unfold roundPos
  have := roundEven_int 0
  simp at this
  simp [this]

theorem roundPos_nonneg {x : ℝ} (h : 0 ≤ x) : 0 ≤ roundPos p emin x := by
  unfold roundPos
  refine mul_nonneg ?_ (two_zpow_pos _).le
  have : roundEven 0 ≤ roundEven (x / 2 ^ lastPlace p emin x) :=
    roundEven_mono (div_nonneg h (two_zpow_pos _).le)
  have h0 := roundEven_int 0
  simp at h0
  rw [h0] at this
  exact_mod_cast this

/-- Numbers with at most `p` significant bits are kept. -/
theorem roundPos_rep {m : ℕ} {k : ℤ} (hm : m < 2 ^ p) (hk : emin - (p - 1) ≤ k) :
    roundPos p emin (m * 2 ^ k) = m * 2 ^ k := by
  rcases Nat.eq_zero_or_pos m with rfl | hpos
  · simp [roundPos_zero]
  have hx : (0 : ℝ) < m * 2 ^ k := mul_pos (by exact_mod_cast hpos) (two_zpow_pos k)
  have hlog : Int.log 2 ((m : ℝ) * 2 ^ k) < p + k := by
    rw [← Int.lt_zpow_iff_log_lt (by norm_num) hx, zpow_add₀ (by norm_num)]
    push_cast
    refine mul_lt_mul_of_pos_right ?_ (two_zpow_pos k)
    exact_mod_cast hm
  have hq : lastPlace p emin (m * 2 ^ k) ≤ k := by
    unfold lastPlace
    rcases max_cases (Int.log 2 ((m : ℝ) * 2 ^ k)) emin with h | h <;> omega
  unfold roundPos
  obtain ⟨j, hj⟩ : ∃ j : ℕ, k = lastPlace p emin (m * 2 ^ k) + j := ⟨(k - lastPlace p emin (m * 2 ^ k)).toNat, by omega⟩
  generalize lastPlace p emin (m * 2 ^ k) = q at *
  have : (m : ℝ) * 2 ^ k / 2 ^ q = ((m * 2 ^ j : ℕ) : ℤ) := by
    rw [hj, zpow_add₀ (by norm_num)]
    push_cast
    field_simp
    rw [zpow_natCast]
  rw [this, roundEven_int]
  rw [hj, zpow_add₀ (by norm_num)]
  push_cast
  rw [zpow_natCast]; ring

theorem roundPos_pow {k : ℤ} (hp : 1 ≤ p) (hk : emin - (p - 1) ≤ k) :
    roundPos p emin (2 ^ k) = 2 ^ k := by
  have := roundPos_rep (p := p) (emin := emin) (m := 1) (k := k) (Nat.one_lt_two_pow (by omega)) hk
  simpa using this

theorem roundPos_mono (hp : 1 ≤ p) {x y : ℝ} (hx : 0 ≤ x) (h : x ≤ y) : roundPos p emin x ≤ roundPos p emin y := by
  rcases eq_or_lt_of_le hx with rfl | hx0
  · rw [roundPos_zero]; exact roundPos_nonneg h
  have hy0 : 0 < y := hx0.trans_le h
  have hlog : Int.log 2 x ≤ Int.log 2 y := Int.log_mono_right hx0 h
  rcases lt_or_eq_of_le (max_le_max hlog (le_refl emin)) with hlt | heq
  · have hy : Int.log 2 y = max (Int.log 2 y) emin := by
      rcases max_cases (Int.log 2 y) emin with h1 | h1
      · exact h1.1.symm
      · have := le_max_right (Int.log 2 x) emin; omega
    set ex := max (Int.log 2 x) emin with hex
    have h1 : roundPos p emin x ≤ 2 ^ (ex + 1) := by
      unfold roundPos lastPlace
      rw [← hex]
      have hb : x / 2 ^ (ex - ((p : ℤ) - 1)) ≤ ((2 ^ p : ℕ) : ℤ) := by
        rw [div_le_iff₀ (two_zpow_pos _)]
        push_cast
        rw [← zpow_natCast, ← zpow_add₀ (by norm_num), show (p : ℤ) + (ex - (p - 1)) = ex + 1 by ring]
        apply le_of_lt
        have hh := Int.lt_zpow_succ_log_self (b := 2) (by norm_num) x
        push_cast at hh
        refine hh.trans_le (zpow_le_zpow_right₀ (by norm_num) ?_)
        have := le_max_left (Int.log 2 x) emin; omega
      have hr := roundEven_mono hb
      rw [roundEven_int] at hr
      calc (roundEven (x / 2 ^ (ex - ((p : ℤ) - 1))) : ℝ) * 2 ^ (ex - ((p : ℤ) - 1))
          ≤ (2 ^ p : ℕ) * 2 ^ (ex - ((p : ℤ) - 1)) :=
            mul_le_mul_of_nonneg_right (by exact_mod_cast hr) (two_zpow_pos _).le
        _ = 2 ^ (ex + 1) := by
            push_cast
            rw [← zpow_natCast, ← zpow_add₀ (by norm_num)]; congr 1; ring
    set ey := max (Int.log 2 y) emin with hey
    have h2 : (2 : ℝ) ^ ey ≤ roundPos p emin y := by
      unfold roundPos lastPlace
      rw [← hey]
      have hb : (((2 ^ (p - 1) : ℕ) : ℤ) : ℝ) ≤ y / 2 ^ (ey - ((p : ℤ) - 1)) := by
        rw [le_div_iff₀ (two_zpow_pos _)]
        push_cast
        rw [← zpow_natCast, ← zpow_add₀ (by norm_num), Nat.cast_sub hp,
          show (p : ℤ) - (1 : ℕ) + (ey - (p - 1)) = ey by push_cast; ring, ← hy]
        have hh := Int.zpow_log_le_self (b := 2) (by norm_num) hy0
        exact_mod_cast hh
      have hr := roundEven_mono hb
      rw [roundEven_int] at hr
      calc (2 : ℝ) ^ ey = (2 ^ (p - 1) : ℕ) * 2 ^ (ey - ((p : ℤ) - 1)) := by
            push_cast
            rw [← zpow_natCast, ← zpow_add₀ (by norm_num), Nat.cast_sub hp]; congr 1; push_cast; ring
        _ ≤ _ := mul_le_mul_of_nonneg_right (by exact_mod_cast hr) (two_zpow_pos _).le
    calc _ ≤ (2 : ℝ) ^ (ex + 1) := h1
      _ ≤ 2 ^ ey := zpow_le_zpow_right₀ (by norm_num) (by omega)
      _ ≤ _ := h2
  · unfold roundPos lastPlace
    rw [heq]
    refine mul_le_mul_of_nonneg_right ?_ (two_zpow_pos _).le
    exact_mod_cast roundEven_mono (div_le_div_of_nonneg_right h (two_zpow_pos _).le)

theorem ieee_round_nonneg {x : ℝ} (h : 0 ≤ x) : rnd (ieee p emin emax) x =
    if roundPos p emin x < 2 ^ (emax + 1) then fin (roundPos p emin x) else pinf := by
  show (if roundPos p emin |x| < 2 ^ (emax + 1) then fin (if x < 0 then -roundPos p emin |x| else roundPos p emin |x|)
    else if x < 0 then ninf else pinf) = _
  rw [abs_of_nonneg h, if_neg (not_lt.mpr h), if_neg (not_lt.mpr h)]

theorem ieee_round_neg {x : ℝ} (h : x < 0) : rnd (ieee p emin emax) x =
    if roundPos p emin (-x) < 2 ^ (emax + 1) then fin (-roundPos p emin (-x)) else ninf := by
  show (if roundPos p emin |x| < 2 ^ (emax + 1) then fin (if x < 0 then -roundPos p emin |x| else roundPos p emin |x|)
    else if x < 0 then ninf else pinf) = _
  rw [abs_of_neg h, if_pos h, if_pos h]

theorem ieee_rep {m : ℕ} {k : ℤ} (hm : m < 2 ^ p) (hk : emin - (p - 1) ≤ k)
    (hov : (m : ℝ) * 2 ^ k < 2 ^ (emax + 1)) : rnd (ieee p emin emax) (m * 2 ^ k) = fin (m * 2 ^ k) := by
  rw [ieee_round_nonneg (by positivity), roundPos_rep hm hk, if_pos hov]

theorem ieee_rounding (hp : 9 ≤ p) (h0 : emin ≤ 0) (h9 : 9 ≤ emax) : (ieee p emin emax).Rounding where
  mono {x y} h := by
    rcases lt_or_ge x 0 with hx | hx
    · rcases lt_or_ge y 0 with hy | hy
      · rw [ieee_round_neg hx, ieee_round_neg hy]
        have := roundPos_mono (emin := emin) (by omega : 1 ≤ p) (by linarith : 0 ≤ -y) (by linarith : -y ≤ -x)
        split_ifs with h1 h2
        · rw [le_fin, decide_eq_true_eq]; linarith
        · exfalso; linarith
        · exact ninf_le_fin _
        · exact ninf_le_ninf
      · rw [ieee_round_neg hx, ieee_round_nonneg hy]
        have h1 := roundPos_nonneg (p := p) (emin := emin) (by linarith : 0 ≤ -x)
        have h2 := roundPos_nonneg (p := p) (emin := emin) hy
        split_ifs
        · rw [le_fin, decide_eq_true_eq]; linarith
        · exact fin_le_pinf _
        · exact ninf_le_fin _
        · exact ninf_le_pinf
    · rw [ieee_round_nonneg hx, ieee_round_nonneg (hx.trans h)]
      have := roundPos_mono (emin := emin) (by omega : 1 ≤ p) hx h
      split_ifs with h1 h2
      · rw [le_fin, decide_eq_true_eq]; exact this
      · exact fin_le_pinf _
      · exfalso; linarith
      · exact pinf_le_pinf
  small n hn := by
    have := ieee_rep (p := p) (emin := emin) (emax := emax) (m := n) (k := 0)
      (lt_of_le_of_lt hn ((by norm_num : 256 < 2 ^ 9).trans_le (Nat.pow_le_pow_right (by norm_num) hp))) (by omega) ?_
    · simpa using this
    · rw [zpow_zero, mul_one]
      have h1 : (n : ℝ) < 2 ^ (9 : ℤ) := by
        have : (n : ℝ) ≤ 256 := by exact_mod_cast hn
        norm_num; linarith
      exact h1.trans_le (zpow_le_zpow_right₀ (by norm_num) (by omega))

end

instance : binary32.Rounding := ieee_rounding (by norm_num) (by norm_num) (by norm_num)
instance : binary64.Rounding := ieee_rounding (by norm_num) (by norm_num) (by norm_num)

/-- Relative error at most half an ulp for normal results. -/
theorem roundPos_rel {p : ℕ} {emin : ℤ} {x : ℝ} (hx : 2 ^ emin ≤ x) :
    |roundPos p emin x - x| ≤ 2 ^ (-(p : ℤ)) * x := by
  have hx0 : 0 < x := (two_zpow_pos _).trans_le hx
  have hl : max (Int.log 2 x) emin = Int.log 2 x :=
    max_eq_left ((Int.zpow_le_iff_le_log (b := 2) (by norm_num) hx0).mp (by exact_mod_cast hx))
  unfold roundPos
  have hq : lastPlace p emin x = Int.log 2 x - (p - 1) := by rw [lastPlace, hl]
  rw [hq]
  have hc := roundEven_close (x / 2 ^ (Int.log 2 x - ((p : ℤ) - 1)))
  have hpos := two_zpow_pos (Int.log 2 x - ((p : ℤ) - 1))
  have hle : (2 : ℝ) ^ Int.log 2 x ≤ x := by exact_mod_cast Int.zpow_log_le_self (b := 2) (by norm_num) hx0
  generalize (roundEven (x / 2 ^ (Int.log 2 x - ((p : ℤ) - 1))) : ℝ) = r at *
  have : r * 2 ^ (Int.log 2 x - ((p : ℤ) - 1)) - x =
      (r - x / 2 ^ (Int.log 2 x - ((p : ℤ) - 1))) * 2 ^ (Int.log 2 x - ((p : ℤ) - 1)) := by
    field_simp
  rw [this, abs_mul, abs_of_pos hpos]
  calc _ ≤ 1 / 2 * (2 : ℝ) ^ (Int.log 2 x - ((p : ℤ) - 1)) := mul_le_mul_of_nonneg_right hc hpos.le
    _ = 2 ^ (-(p : ℤ)) * 2 ^ (Int.log 2 x) := by
        rw [show (1 : ℝ) / 2 = 2 ^ (-1 : ℤ) by norm_num, ← zpow_add₀ (by norm_num), ← zpow_add₀ (by norm_num)]
        congr 1; ring
    _ ≤ _ := mul_le_mul_of_nonneg_left hle (two_zpow_pos _).le

end DRT
