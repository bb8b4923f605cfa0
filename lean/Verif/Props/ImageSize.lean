import Verif.Model.Render
import Verif.Model.Scenes
import Verif.Props.Camera
import Verif.Scalar.IEEE

/-! # C111: the size of the images and the shape of the pixels -/

namespace DRT
open Scalar Fl Matrix

variable {F : Fmt}

/-- A number slightly below a representable integer that is not a power of two is rounded to that integer. -/
theorem roundPos_below {p n : ℕ} {emin : ℤ} (he : emin ≤ 0) (hp : 1 ≤ p) (hn : n < 2 ^ p) (h2 : ∀ k : ℕ, n ≠ 2 ^ k) (hn0 : 0 < n) {x : ℝ}
    (hx : (n : ℝ) - n * 2 ^ (-((p : ℤ) + 1)) < x) (hxn : x ≤ n) : roundPos p emin x = n := by
  have hnR : (0 : ℝ) < n := by exact_mod_cast hn0
  have hnp : (n : ℝ) < 2 ^ p := by exact_mod_cast hn
  obtain ⟨L, hL1, hL2⟩ : ∃ L : ℕ, 2 ^ L ≤ n ∧ n < 2 ^ (L + 1) := ⟨Nat.log 2 n, Nat.pow_log_le_self 2 hn0.ne', Nat.lt_pow_succ_log_self (by norm_num) n⟩
  have hL3 : 2 ^ L + 1 ≤ n := by
    have := h2 L
    omega
  have hsmall : (n : ℝ) * 2 ^ (-((p : ℤ) + 1)) < 1 / 2 := by
    have : (2 : ℝ) ^ (-((p : ℤ) + 1)) = (2 ^ p)⁻¹ * (1 / 2) := by
      rw [neg_add, zpow_add₀ (by norm_num), zpow_neg, zpow_natCast]; norm_num
    rw [this, ← mul_assoc]
    have : (n : ℝ) * (2 ^ p)⁻¹ < 1 := by rw [← div_eq_mul_inv, div_lt_one (by positivity)]; exact hnp
    linarith
  have hL3' : (2 : ℝ) ^ L + 1 ≤ n := by exact_mod_cast hL3
  have hL2' : (n : ℝ) < 2 ^ (L + 1) := by exact_mod_cast hL2
  have hpow : (1 : ℝ) ≤ 2 ^ L := one_le_pow₀ (by norm_num)
  have hx0 : 0 < x := by linarith
  have hlog : Int.log 2 x = L := by
    apply le_antisymm
    · rw [← Int.lt_add_one_iff, ← Int.lt_zpow_iff_log_lt (by norm_num) hx0]
      rw [show ((L : ℤ) + 1) = ((L + 1 : ℕ) : ℤ) by push_cast; rfl, zpow_natCast]
      push_cast
      linarith
    · rw [← Int.zpow_le_iff_le_log (by norm_num) hx0]
      push_cast
      rw [zpow_natCast]
      linarith
  have hlp : lastPlace p emin x = L - (p - 1) := by
    unfold lastPlace
    rw [hlog, max_eq_left (by omega)]
  have hLp : L < p := by
    by_contra hc
    have : 2 ^ p ≤ 2 ^ L := Nat.pow_le_pow_right (by norm_num) (not_lt.mp hc)
    omega
  obtain ⟨e, hed⟩ : ∃ e : ℕ, p - 1 = L + e := ⟨p - 1 - L, by omega⟩
  have he' : (L : ℤ) - (p - 1) = -(e : ℤ) := by omega
  unfold roundPos
  rw [hlp, he', zpow_neg, zpow_natCast, div_inv_eq_mul]
  have hpe : (0 : ℝ) < 2 ^ e := by positivity
  have hN : ((n * 2 ^ e : ℕ) : ℝ) < 2 ^ p := by
    have : n * 2 ^ e < 2 ^ p := by
      calc n * 2 ^ e < 2 ^ (L + 1) * 2 ^ e := Nat.mul_lt_mul_of_pos_right hL2 (by positivity)
        _ = 2 ^ p := by rw [← pow_add]; congr 1; omega
    exact_mod_cast this
  have hr : roundEven (x * 2 ^ e) = ((n * 2 ^ e : ℕ) : ℤ) := by
    apply le_antisymm
    · rw [← roundEven_int ((n * 2 ^ e : ℕ) : ℤ)]
      apply roundEven_mono
      push_cast
      nlinarith
    · have h3 := (abs_le.mp (roundEven_close (x * 2 ^ e))).1
      have h4 : ((n * 2 ^ e : ℕ) : ℝ) - 1 / 2 < x * 2 ^ e := by
        have h5 : ((n * 2 ^ e : ℕ) : ℝ) * 2 ^ (-((p : ℤ) + 1)) < 1 / 2 := by
          have : (2 : ℝ) ^ (-((p : ℤ) + 1)) = (2 ^ p)⁻¹ * (1 / 2) := by
            rw [neg_add, zpow_add₀ (by norm_num), zpow_neg, zpow_natCast]; norm_num
          rw [this, ← mul_assoc]
          have : ((n * 2 ^ e : ℕ) : ℝ) * (2 ^ p)⁻¹ < 1 := by rw [← div_eq_mul_inv, div_lt_one (by positivity)]; exact hN
          linarith
        have h6 := mul_lt_mul_of_pos_right hx hpe
        push_cast at h5 ⊢
        nlinarith
      have h7 : (((n * 2 ^ e : ℕ) : ℤ) : ℝ) - 1 < roundEven (x * 2 ^ e) := by
        rw [Int.cast_natCast]
        linarith
      have h8 : (((n * 2 ^ e : ℕ) : ℤ)) - 1 < roundEven (x * 2 ^ e) := by exact_mod_cast h7
      omega
  rw [hr]
  push_cast
  field_simp

/-- The quotient of a width by a number `b` near 8/5. -/
theorem imageHeight_ieee {p : ℕ} {emin emax : ℤ} (he : emin ≤ 0) (hp : 4 ≤ p) (hmax : (p : ℤ) ≤ emax) (he2 : emin - (p - 1) ≤ -3)
    (b : ℝ) (hb0 : 8 / 5 ≤ b) (hb1 : b * (1 - 2 ^ (-((p : ℤ) + 1))) < 8 / 5)
    (hlit : (lit (16 / 10) : Fl (ieee p emin emax)) = fin b) (w : ℕ) (hw : 5 * w < 2 ^ p) :
    imageHeight w (lit (16 / 10) : Fl (ieee p emin emax)) = some ((5 * w / 8 : ℕ) : ℤ) := by
  have hover : ∀ x : ℝ, x < 2 ^ p → x < 2 ^ (emax + 1) := by
    intro x hx
    have : (2 : ℝ) ^ (p : ℤ) ≤ 2 ^ (emax + 1) := zpow_le_zpow_right₀ (by norm_num) (by omega)
    rw [zpow_natCast] at this
    linarith
  have hwp : w < 2 ^ p := by omega
  have hwpR : (w : ℝ) < 2 ^ p := by exact_mod_cast hwp
  have hw1 : (lit (w : ℚ) : Fl (ieee p emin emax)) = fin w := by
    show rnd _ _ = _
    have := ieee_rep (p := p) (emin := emin) (emax := emax) (m := w) (k := 0) hwp (by omega) (by rw [zpow_zero, mul_one]; exact hover _ hwpR)
    rw [zpow_zero, mul_one] at this
    push_cast
    exact this
  have hb : 0 < b := by linarith
  have hround : ∀ n : ℕ, (∃ y : ℝ, roundPos p emin (w / b) = y ∧ (n : ℝ) ≤ y ∧ y < n + 1 ∧ y < 2 ^ p) →
      imageHeight w (lit (16 / 10) : Fl (ieee p emin emax)) = some ((n : ℕ) : ℤ) := by
    rintro n ⟨y, hy, h1, h2, h3⟩
    unfold imageHeight
    rw [hw1, hlit]
    have : (fin (w : ℝ) : Fl (ieee p emin emax)) / fin b = rnd (ieee p emin emax) (w / b) := by
      show (if b = 0 then _ else _) = _
      rw [if_neg hb.ne']
    rw [this, ieee_round_nonneg (by positivity), hy, if_pos (hover _ h3), toInt_fin,
      if_pos (le_trans (Nat.cast_nonneg n) h1)]
    congr 1
    rw [Int.floor_eq_iff]
    constructor
    · push_cast; exact h1
    · push_cast; exact h2
  apply hround
  obtain ⟨n, r, hn, hr⟩ : ∃ n r : ℕ, 5 * w = 8 * n + r ∧ r < 8 := ⟨5 * w / 8, 5 * w % 8, by omega, by omega⟩
  have hn' : 5 * w / 8 = n := by omega
  rw [hn']
  have hnR : (5 : ℝ) * w = 8 * n + r := by exact_mod_cast hn
  have hwR : (5 : ℝ) * w < 2 ^ p := by exact_mod_cast hw
  have hw0 : (0 : ℝ) ≤ w := Nat.cast_nonneg w
  have hxle : (w : ℝ) / b ≤ 5 * w / 8 := by
    rw [div_le_iff₀ hb]; nlinarith
  have hxge : (5 : ℝ) * w / 8 - 5 * w / 8 * 2 ^ (-((p : ℤ) + 1)) ≤ w / b := by
    rw [le_div_iff₀ hb]
    have := mul_le_mul_of_nonneg_left hb1.le (by positivity : (0 : ℝ) ≤ 5 * w / 8)
    nlinarith
  have hdelta : (2 : ℝ) ^ (-((p : ℤ) + 1)) = (2 ^ p)⁻¹ * (1 / 2) := by
    rw [neg_add, zpow_add₀ (by norm_num), zpow_neg, zpow_natCast]; norm_num
  rcases Nat.eq_zero_or_pos w with rfl | hwpos
  · refine ⟨0, by simp [roundPos_zero], ?_, ?_, by positivity⟩
    · have : n = 0 := by omega
      simp [this]
    · have : (0 : ℝ) ≤ n := Nat.cast_nonneg n
      linarith
  have hwposR : (0 : ℝ) < w := by exact_mod_cast hwpos
  rcases Nat.eq_zero_or_pos r with rfl | hrpos
  · have hv : (5 : ℝ) * w / 8 = n := by rw [hnR]; push_cast; ring
    rw [hv] at hxle hxge
    have h5 : 5 ∣ n := by omega
    have hn0 : 0 < n := by omega
    have hnot : ∀ k : ℕ, n ≠ 2 ^ k := by
      rintro k rfl
      have := Nat.Prime.dvd_of_dvd_pow Nat.prime_five h5
      omega
    have hstrict : (n : ℝ) - n * 2 ^ (-((p : ℤ) + 1)) < w / b := by
      rw [lt_div_iff₀ hb]
      have := mul_lt_mul_of_pos_left hb1 (by positivity : (0 : ℝ) < 5 * w / 8)
      rw [← hv]
      nlinarith
    refine ⟨n, roundPos_below he (by omega) (by omega) hnot hn0 hstrict hxle, le_rfl, by linarith, ?_⟩
    have : n < 2 ^ p := by omega
    exact_mod_cast this
  · have hrR : (1 : ℝ) ≤ r := by exact_mod_cast hrpos
    have hr7 : (r : ℝ) ≤ 7 := by
      have : r ≤ 7 := by omega
      exact_mod_cast this
    have hsmall : (5 : ℝ) * w / 8 * 2 ^ (-((p : ℤ) + 1)) < 1 / 16 := by
      rw [hdelta]
      have : (5 : ℝ) * w * (2 ^ p)⁻¹ < 1 := by rw [← div_eq_mul_inv, div_lt_one (by positivity)]; exact hwR
      linarith
    have hnle : (n : ℝ) ≤ w / b := by linarith
    have h1 := roundPos_mono (p := p) (emin := emin) (by omega) (Nat.cast_nonneg n) hnle
    have h2 := roundPos_mono (p := p) (emin := emin) (by omega) (by positivity) hxle
    have e1 : roundPos p emin (n : ℝ) = n := by
      have := roundPos_rep (p := p) (emin := emin) (m := n) (k := 0) (by omega) (by omega)
      rwa [zpow_zero, mul_one] at this
    have e2 : roundPos p emin ((5 : ℝ) * w / 8) = 5 * w / 8 := by
      have := roundPos_rep (p := p) (emin := emin) (m := 5 * w) (k := -3) hw he2
      rw [show (5 : ℝ) * w / 8 = ((5 * w : ℕ) : ℝ) * 2 ^ (-3 : ℤ) by push_cast; norm_num; ring]
      exact this
    rw [e1] at h1
    rw [e2] at h2
    exact ⟨_, rfl, h1, by linarith, by linarith⟩

/-- The literal `1.6` as a `double`. -/
theorem lit16_binary64 : (lit (16 / 10) : Fl binary64) = fin (7205759403792794 * 2 ^ (-52 : ℤ)) := by
  show rnd binary64 (((16 / 10 : ℚ) : ℚ) : ℝ) = _
  have h0 : ((16 / 10 : ℚ) : ℝ) = 8 / 5 := by norm_num
  have hlog : Int.log 2 ((8 : ℝ) / 5) = 0 := by
    apply le_antisymm
    · rw [← Int.lt_add_one_iff, ← Int.lt_zpow_iff_log_lt (by norm_num) (by norm_num)]; norm_num
    · rw [← Int.zpow_le_iff_le_log (by norm_num) (by norm_num)]; norm_num
  have hlp : lastPlace 53 (-1022) ((8 : ℝ) / 5) = -52 := by unfold lastPlace; rw [hlog]; norm_num
  have hf : ⌊(8 : ℝ) / 5 / 2 ^ (-52 : ℤ)⌋ = 7205759403792793 := by
    rw [Int.floor_eq_iff]; norm_num [zpow_neg]
  have hr : roundEven ((8 : ℝ) / 5 / 2 ^ (-52 : ℤ)) = 7205759403792794 := by
    unfold roundEven; rw [hf]; norm_num [zpow_neg]
  rw [h0]
  unfold binary64
  have hp : roundPos 53 (-1022) ((8 : ℝ) / 5) = 7205759403792794 * 2 ^ (-52 : ℤ) := by
    unfold roundPos; rw [hlp, hr]; norm_num
  rw [ieee_round_nonneg (by norm_num), hp, if_pos]
  have : (2 : ℝ) ^ (1 : ℤ) ≤ 2 ^ ((1023 : ℤ) + 1) := zpow_le_zpow_right₀ (by norm_num) (by norm_num)
  refine lt_of_lt_of_le ?_ this
  norm_num [zpow_neg]

/-- The literal `1.6` as a `float`. -/
theorem lit16_binary32 : (lit (16 / 10) : Fl binary32) = fin (13421773 * 2 ^ (-23 : ℤ)) := by
  show rnd binary32 (((16 / 10 : ℚ) : ℚ) : ℝ) = _
  have h0 : ((16 / 10 : ℚ) : ℝ) = 8 / 5 := by norm_num
  have hlog : Int.log 2 ((8 : ℝ) / 5) = 0 := by
    apply le_antisymm
    · rw [← Int.lt_add_one_iff, ← Int.lt_zpow_iff_log_lt (by norm_num) (by norm_num)]; norm_num
    · rw [← Int.zpow_le_iff_le_log (by norm_num) (by norm_num)]; norm_num
  have hlp : lastPlace 24 (-126) ((8 : ℝ) / 5) = -23 := by unfold lastPlace; rw [hlog]; norm_num
  have hf : ⌊(8 : ℝ) / 5 / 2 ^ (-23 : ℤ)⌋ = 13421772 := by
    rw [Int.floor_eq_iff]; norm_num [zpow_neg]
  have hr : roundEven ((8 : ℝ) / 5 / 2 ^ (-23 : ℤ)) = 13421773 := by
    unfold roundEven; rw [hf]; norm_num [zpow_neg]
  rw [h0]
  unfold binary32
  have hp : roundPos 24 (-126) ((8 : ℝ) / 5) = 13421773 * 2 ^ (-23 : ℤ) := by
    unfold roundPos; rw [hlp, hr]; norm_num
  rw [ieee_round_nonneg (by norm_num), hp, if_pos]
  have : (2 : ℝ) ^ (1 : ℤ) ≤ 2 ^ ((127 : ℤ) + 1) := zpow_le_zpow_right₀ (by norm_num) (by norm_num)
  refine lt_of_lt_of_le ?_ this
  norm_num [zpow_neg]

/-- C111: for the aspect ratio `1.6`, which is not a `double`, the height computed in `double` is nevertheless the integer part of
`width / 1.6`; in particular it is exact if `width` is a multiple of 8. -/
theorem C111_double (w : ℕ) (hw : 5 * w < 2 ^ 53) : imageHeight w (lit (16 / 10) : Fl binary64) = some ((5 * w / 8 : ℕ) : ℤ) :=
  imageHeight_ieee (by norm_num) (by norm_num) (by norm_num) (by norm_num) _ (by norm_num [zpow_neg]) (by norm_num [zpow_neg]) lit16_binary64 w hw

/-- C111: the same in `float`. -/
theorem C111_float (w : ℕ) (hw : 5 * w < 2 ^ 24) : imageHeight w (lit (16 / 10) : Fl binary32) = some ((5 * w / 8 : ℕ) : ℤ) :=
  imageHeight_ieee (by norm_num) (by norm_num) (by norm_num) (by norm_num) _ (by norm_num [zpow_neg]) (by norm_num [zpow_neg]) lit16_binary32 w hw

/-- The sizes in the programs: 1200 by 750, 2880 by 1800 and 1800 by 1125. -/
example : imageHeight 1200 (lit (16 / 10) : Fl binary64) = some 750 ∧ imageHeight 2880 (lit (16 / 10) : Fl binary64) = some 1800 ∧
    imageHeight 1800 (lit (16 / 10) : Fl binary32) = some 1125 :=
  ⟨C111_double 1200 (by norm_num), C111_double 2880 (by norm_num), C111_float 1800 (by norm_num)⟩

/-- The step between the directions of corresponding samples of two neighbouring pixels: `(a, b)` to the right and upward. -/
def PixelSteps (cam : Camera (Fl F)) (W H : ℕ) (a b : Fin 3 → ℝ) : Prop :=
  ∀ (i j : ℕ) (x y : ℝ), ∃ d : Fin 3 → ℝ,
    (cam.getRay (Render.coordinate i W (fin x)) (Render.coordinate j H (fin y))).dir = cv d ∧
    (cam.getRay (Render.coordinate (i + 1) W (fin x)) (Render.coordinate j H (fin y))).dir = cv (d + a) ∧
    (cam.getRay (Render.coordinate i W (fin x)) (Render.coordinate (j + 1) H (fin y))).dir = cv (d + b)

/-- C111: the pixels are rectangles; the ratio of width and height is `aspect (H - 1) / (W - 1)`. -/
theorem C111_pixels [F.Exact] (eye target up : Fin 3 → ℝ) (vfov aspect : ℝ) (h0 : 0 < vfov) (h1 : vfov < 180) (hw : eye ≠ target)
    (hup : up ⨯₃ (eye - target) ≠ 0) (W H : ℕ) (hW : 2 ≤ W) (hH : 2 ≤ H) :
    ∃ a b : Fin 3 → ℝ, PixelSteps (Camera.make (cv eye) (cv target) (cv up) (fin vfov) (fin aspect : Fl F)) W H a b ∧
      a ⬝ᵥ b = 0 ∧ 0 < b ⬝ᵥ b ∧ a ⬝ᵥ a = (aspect * (H - 1) / (W - 1)) ^ 2 * (b ⬝ᵥ b) := by
  obtain ⟨u, v, w, ⟨hu, hv, hw1, huv, hvw, hwu, -⟩, -, -, -, h⟩ := C82_rays (F := F) eye target up vfov aspect h0 h1 hw hup
  have hT : 0 < Real.tan (vfov * Real.pi / 180 / 2) := by
    have hp := Real.pi_pos
    apply Real.tan_pos_of_pos_of_lt_pi_div_two
    · positivity
    · have : vfov * Real.pi < 180 * Real.pi := by nlinarith
      linarith
  generalize Real.tan (vfov * Real.pi / 180 / 2) = T at hT h ⊢
  have hW' : (0 : ℝ) < W - 1 := by
    have : (2 : ℝ) ≤ W := by exact_mod_cast hW
    linarith
  have hH' : (0 : ℝ) < H - 1 := by
    have : (2 : ℝ) ≤ H := by exact_mod_cast hH
    linarith
  have hco : ∀ (k n : ℕ) (x : ℝ), (0 : ℝ) < n - 1 → Render.coordinate k n (fin x : Fl F) = fin ((k + x) / (n - 1)) := by
    intro k n x hn
    unfold Render.coordinate
    rw [lit_def, lit_def, Fl.add_fin, div_fin _ (by push_cast; exact hn.ne')]
    push_cast
    rfl
  refine ⟨(2 / (W - 1) * (aspect * T)) • u, (2 / (H - 1) * T) • v, ?_, ?_, ?_, ?_⟩
  · intro i j x y
    rw [hco _ _ _ hW', hco _ _ _ hH', hco _ _ _ hW', hco _ _ _ hH', h, h, h]
    refine ⟨_, rfl, ?_, ?_⟩
    · rw [cv_inj]
      funext k
      simp only [Pi.add_apply, Pi.smul_apply, Pi.neg_apply, smul_eq_mul]
      push_cast
      ring
    · rw [cv_inj]
      funext k
      simp only [Pi.add_apply, Pi.smul_apply, Pi.neg_apply, smul_eq_mul]
      push_cast
      ring
  · simp only [smul_dotProduct, dotProduct_smul, huv, smul_zero]
  · simp only [smul_dotProduct, dotProduct_smul, hv, smul_eq_mul, mul_one]
    positivity
  · simp only [smul_dotProduct, dotProduct_smul, hu, hv, smul_eq_mul, mul_one]
    field_simp

example : ∃ a b : Fin 3 → ℝ, PixelSteps (Camera.make (cv ![1, 2, 3]) (cv 0) (cv ![0, 0, 1]) (fin 45) (fin 2 : Fl exact64)) 200 100 a b ∧
    a ⬝ᵥ b = 0 := by
  obtain ⟨h0, h1, h2, h3⟩ := camera_instance
  obtain ⟨a, b, k1, k2, -⟩ := C111_pixels (F := exact64) ![1, 2, 3] 0 ![0, 0, 1] 45 2 h0 h1 h2 h3 200 100 (by norm_num) (by norm_num)
  exact ⟨a, b, k1, k2⟩

/-- C111: with the aspect ratio 1.6 and a width that is a multiple of 8 the pixels are square up to one part in `W - 1`; with
the aspect ratio 1 and equal width and height they are square. -/
theorem C111_square [F.Exact] (eye target up : Fin 3 → ℝ) (vfov : ℝ) (h0 : 0 < vfov) (h1 : vfov < 180) (hw : eye ≠ target)
    (hup : up ⨯₃ (eye - target) ≠ 0) (k : ℕ) (hk : 1 ≤ k) :
    (∃ (a b : Fin 3 → ℝ) (q : ℝ), PixelSteps (Camera.make (cv eye) (cv target) (cv up) (fin vfov) (fin (8 / 5) : Fl F)) (8 * k) (5 * k) a b ∧
      a ⬝ᵥ b = 0 ∧ 0 < b ⬝ᵥ b ∧ a ⬝ᵥ a = q ^ 2 * (b ⬝ᵥ b) ∧ |q - 1| ≤ 1 / (8 * k - 1)) ∧
    ∃ a b : Fin 3 → ℝ, PixelSteps (Camera.make (cv eye) (cv target) (cv up) (fin vfov) (fin 1 : Fl F)) (k + 1) (k + 1) a b ∧
      a ⬝ᵥ b = 0 ∧ 0 < b ⬝ᵥ b ∧ a ⬝ᵥ a = b ⬝ᵥ b := by
  have hk' : (1 : ℝ) ≤ k := by exact_mod_cast hk
  constructor
  · obtain ⟨a, b, h, hab, hb, haa⟩ := C111_pixels (F := F) eye target up vfov (8 / 5) h0 h1 hw hup (8 * k) (5 * k) (by omega) (by omega)
    refine ⟨a, b, _, h, hab, hb, haa, ?_⟩
    push_cast
    have h8 : (0 : ℝ) < 8 * k - 1 := by linarith
    have : (8 : ℝ) / 5 * (5 * k - 1) / (8 * k - 1) - 1 = -(3 / 5) / (8 * k - 1) := by field_simp; ring
    rw [this, abs_div, abs_of_pos h8]
    apply div_le_div_of_nonneg_right _ h8.le
    rw [abs_le]; constructor <;> norm_num
  · obtain ⟨a, b, h, hab, hb, haa⟩ := C111_pixels (F := F) eye target up vfov 1 h0 h1 hw hup (k + 1) (k + 1) (by omega) (by omega)
    refine ⟨a, b, h, hab, hb, ?_⟩
    rw [haa]
    push_cast
    rw [add_sub_cancel_right, one_mul, div_self (by linarith), one_pow, one_mul]

example : ∃ a b : Fin 3 → ℝ, PixelSteps (Camera.make (cv ![1, 2, 3]) (cv 0) (cv ![0, 0, 1]) (fin 45) (fin 1 : Fl exact64)) 101 101 a b ∧
    a ⬝ᵥ a = b ⬝ᵥ b := by
  obtain ⟨h0, h1, h2, h3⟩ := camera_instance
  obtain ⟨-, a, b, k1, -, -, k2⟩ := C111_square (F := exact64) ![1, 2, 3] 0 ![0, 0, 1] 45 h0 h1 h2 h3 100 (by norm_num)
  exact ⟨a, b, k1, k2⟩

/-- C111, refuted for ellipsoid.cpp: the camera is made for the aspect ratio 1 (ellipsoid.cpp:50, 57-61), the image has 2880 by 1800
pixels (ellipsoid.cpp:51-52), and so each pixel is more than 1.6 times as high as wide: the picture is stretched. -/
theorem C111_ellipsoid_false [F.Exact] : ∃ a b : Fin 3 → ℝ,
    PixelSteps (Camera.make (cv ![478, 278, -600]) (cv ![278, 278, 0]) (cv ![0, 1, 0]) (fin 40) (fin 1 : Fl F)) 2880 1800 a b ∧
      a ⬝ᵥ b = 0 ∧ 0 < a ⬝ᵥ a ∧ (16 / 10) ^ 2 * (a ⬝ᵥ a) < b ⬝ᵥ b := by
  have e1 : (![478, 278, -600] : Fin 3 → ℝ) ≠ ![278, 278, 0] := fun h => by have := congrFun h 0; norm_num at this
  have e2 : (![0, 1, 0] : Fin 3 → ℝ) ⨯₃ (![478, 278, -600] - ![278, 278, 0]) ≠ 0 := fun h => by
    have := congrFun h 2; simp [cross_apply] at this; norm_num at this
  obtain ⟨a, b, h, hab, hb, haa⟩ := C111_pixels (F := F) ![478, 278, -600] ![278, 278, 0] ![0, 1, 0] 40 1 (by norm_num) (by norm_num) e1 e2 2880 1800 (by norm_num) (by norm_num)
  refine ⟨a, b, h, hab, ?_, ?_⟩
  · rw [haa]; norm_num; exact hb
  · rw [haa]; norm_num; nlinarith

end DRT
