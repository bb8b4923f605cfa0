import Verif.Model.Render
import Verif.Scalar.IEEE
import Verif.Props.Lambertian

/-! # C85, C86, C87, C88, C92: samples, costs, names, bytes and the progress bar -/

namespace DRT
open Scalar Fl

variable {F : Fmt}

/-! ## C88 -/

theorem sqrt_rounded {a : ℝ} (h : 0 ≤ a) : Scalar.sqrt (fin a : Fl F) = rnd F (Real.sqrt a) := by
  show (if a < 0 then Fl.nan else rnd F (Real.sqrt a)) = _
  rw [if_neg (not_lt.2 h)]

theorem div_rounded (a : ℝ) {b : ℝ} (h : b ≠ 0) : (fin a : Fl F) / fin b = rnd F (a / b) := by
  show (if b = 0 then (if a = 0 then Fl.nan else if F.zdiv a then pinf else ninf) else rnd F (a / b)) = _
  rw [if_neg h]

/-- Clamping something that is at least zero to the unit interval. -/
theorem clamp_unit [F.Rounding] {x : Fl F} (h : Scalar.le (fin 0) x = true) : ∃ y : ℝ, Scalar.clamp x 0 1 = fin y ∧ 0 ≤ y ∧ y ≤ 1 ∧
    (∀ a, x = fin a → y = Min.min a 1) ∧ (x = pinf → y = 1) := by
  unfold Scalar.clamp
  rw [rzero, rone]
  cases x with
  | nan => simp at h
  | ninf => simp at h
  | pinf => exact ⟨1, by simp, by norm_num, le_refl _, by simp, fun _ => rfl⟩
  | fin a =>
    rw [le_fin] at h
    rw [lt_fin, lt_fin, if_neg (by simpa using h)]
    by_cases h1 : 1 < a
    · rw [if_pos (by simpa using h1)]
      exact ⟨1, rfl, by norm_num, le_refl _, fun b hb => by rw [fin_inj] at hb; rw [← hb, min_eq_right h1.le], by simp⟩
    · rw [if_neg (by simpa using h1)]
      refine ⟨a, rfl, by simpa using h, not_lt.1 h1, fun b hb => by rw [fin_inj] at hb; rw [← hb, min_eq_left (not_lt.1 h1)], by simp⟩

theorem toByte_fin {z : ℝ} (h0 : 0 ≤ z) (h1 : z ≤ 255) : ∃ b, toByte (fin z : Fl F) = some b ∧ b.toNat = ⌊z⌋₊ := by
  have hf : ⌊z⌋₊ ≤ 255 := by
    have : ⌊z⌋₊ ≤ ⌊(255 : ℝ)⌋₊ := Nat.floor_le_floor h1
    simpa using this
  refine ⟨UInt8.ofNat ⌊z⌋₊, ?_, ?_⟩
  · unfold toByte
    rw [toInt_fin, if_pos h0]
    have h2 : ⌊z⌋ = ((⌊z⌋₊ : ℕ) : ℤ) := (Int.natCast_floor_eq_floor h0).symm
    simp only [h2]
    rw [if_pos ⟨by positivity, by omega⟩, Int.toNat_natCast]
  · rw [UInt8.toNat_ofNat_of_lt']
    simp only [UInt8.size]; omega

/-- C88: with any monotone rounding, a channel that is not negative (infinity included) becomes a byte. -/
theorem C88_defined [F.Rounding] (c : Fl F) (h : Scalar.le (fin 0) c = true) : ∃ b, channel c = some b := by
  have hs : Scalar.le (fin 0) (Scalar.sqrt c) = true := by
    rcases sqrt_nonneg_or_nan c with h1 | h1
    · exfalso
      cases c with
      | nan => simp at h
      | ninf => simp at h
      | pinf => simp at h1
      | fin a =>
        rw [le_fin] at h
        rw [sqrt_rounded (by simpa using h)] at h1
        have := rnd_not_nan (F := F) (Real.sqrt a)
        rw [h1] at this
        simp at this
    · exact h1
  obtain ⟨y, h1, h2, h3, -⟩ := clamp_unit hs
  unfold channel
  rw [h1, lit_small 255 (by norm_num)]
  obtain ⟨z, h4, h5, h6⟩ := rnd_between (F := F) (a := 0) (b := 255) (x := 255 * y) rnd_zero
    (by simpa using Fmt.Rounding.small (F := F) 255 (by norm_num)) (by positivity) (by linarith)
  have : ((fin ((255 : ℕ) : ℝ) : Fl F) * fin y) = fin z := by rw [← h4]; norm_num; rfl
  rw [this]
  obtain ⟨b, hb, -⟩ := toByte_fin (F := F) h5 h6
  exact ⟨b, hb⟩

/-- C88: with any monotone rounding, a brighter channel becomes a byte that is not less. -/
theorem C88_monotone [F.Rounding] (a b : ℝ) (ha : 0 ≤ a) (hab : a ≤ b) (p q : UInt8) (hp : channel (fin a : Fl F) = some p)
    (hq : channel (fin b : Fl F) = some q) : p.toNat ≤ q.toNat := by
  have key : ∀ c : ℝ, 0 ≤ c → ∀ p, channel (fin c : Fl F) = some p → ∃ z : ℝ, 0 ≤ z ∧ p.toNat = ⌊z⌋₊ ∧
      ∃ y : ℝ, rnd F (255 * y) = fin z ∧ (∀ s, rnd F (Real.sqrt c) = fin s → y = Min.min s 1) ∧ (rnd F (Real.sqrt c) = pinf → y = 1) := by
    intro c hc p hp
    have hs : Scalar.sqrt (fin c : Fl F) = rnd F (Real.sqrt c) := sqrt_rounded hc
    obtain ⟨y, h1, h2, h3, h4, h5⟩ := clamp_unit (rnd_nonneg (F := F) (Real.sqrt_nonneg c))
    unfold channel at hp
    rw [hs, h1, lit_small 255 (by norm_num)] at hp
    obtain ⟨z, h6, h7, h8⟩ := rnd_between (F := F) (a := 0) (b := 255) (x := 255 * y) rnd_zero
      (by simpa using Fmt.Rounding.small (F := F) 255 (by norm_num)) (by positivity) (by linarith)
    have : ((fin ((255 : ℕ) : ℝ) : Fl F) * fin y) = fin z := by rw [← h6]; norm_num; rfl
    rw [this] at hp
    obtain ⟨b, hb, hb2⟩ := toByte_fin (F := F) h7 h8
    rw [hb, Option.some.injEq] at hp
    exact ⟨z, h7, hp ▸ hb2, y, h6, h4, h5⟩
  obtain ⟨z, z0, hz, y, hzy, y1, y2⟩ := key a ha p hp
  obtain ⟨z', z0', hz', y', hzy', y1', y2'⟩ := key b (ha.trans hab) q hq
  have hy : y ≤ y' := by
    have m := Fmt.Rounding.mono (F := F) (Real.sqrt_le_sqrt hab)
    have n1 := rnd_nonneg (F := F) (Real.sqrt_nonneg a)
    generalize rnd F (Real.sqrt a) = u at m y1 y2 n1
    generalize rnd F (Real.sqrt b) = v at m y1' y2'
    cases u with
    | nan => simp at n1
    | ninf => simp at n1
    | pinf =>
      cases v with
      | nan => simp at m
      | ninf => simp at m
      | fin v => simp at m
      | pinf => rw [y2 rfl, y2' rfl]
    | fin u =>
      cases v with
      | nan => simp at m
      | ninf => simp at m
      | fin v =>
        rw [y1 _ rfl, y1' _ rfl]
        exact min_le_min_right 1 (by simpa using m)
      | pinf => rw [y1 _ rfl, y2' rfl]; exact min_le_right _ _
  rw [hz, hz']
  have m := Fmt.Rounding.mono (F := F) (by linarith : 255 * y ≤ 255 * y')
  rw [hzy, hzy', le_fin] at m
  exact Nat.floor_le_floor (by simpa using m)

/-- Two levels of binary64 that have bytes: the brighter one does not get the smaller byte. -/
example : ∃ p q, channel (fin (1 / 3) : Fl binary64) = some p ∧ channel (fin (1 / 2) : Fl binary64) = some q ∧ p.toNat ≤ q.toNat := by
  obtain ⟨p, hp⟩ := C88_defined (F := binary64) (fin (1 / 3)) (by simp [fl])
  obtain ⟨q, hq⟩ := C88_defined (F := binary64) (fin (1 / 2)) (by simp [fl])
  exact ⟨p, q, hp, hq, C88_monotone (1 / 3) (1 / 2) (by norm_num) (by norm_num) p q hp hq⟩

/-- C88: in exact arithmetic the byte of a channel `c ≥ 0` is `⌊255√c⌋`, but at most 255. -/
theorem C88_value [F.Exact] (c : ℝ) (h : 0 ≤ c) : ∃ b, channel (fin c : Fl F) = some b ∧ b.toNat = Min.min 255 ⌊255 * Real.sqrt c⌋₊ := by
  obtain ⟨y, h1, h2, h3, h4, -⟩ := clamp_unit (F := F) (x := fin (Real.sqrt c)) (by simpa using Real.sqrt_nonneg c)
  have h5 := h4 _ rfl
  obtain ⟨b, hb, hb2⟩ := toByte_fin (F := F) (z := 255 * y) (by positivity) (by linarith)
  refine ⟨b, ?_, ?_⟩
  · unfold channel
    rw [sqrt_fin h, h1, lit_small 255 (by norm_num)]
    simpa using hb
  · rw [hb2, h5]
    rcases le_total (Real.sqrt c) 1 with h6 | h6
    · rw [min_eq_left h6]
      have : ⌊255 * Real.sqrt c⌋₊ ≤ 255 := by
        have : ⌊255 * Real.sqrt c⌋₊ ≤ ⌊(255 : ℝ)⌋₊ := Nat.floor_le_floor (by linarith)
        simpa using this
      omega
    · rw [min_eq_right h6]
      have : 255 ≤ ⌊255 * Real.sqrt c⌋₊ := Nat.le_floor (by push_cast; linarith)
      simp [this]

/-- C88: black is 0, and everything from 1 on is 255. -/
theorem C88_ends [F.Exact] : channel (fin 0 : Fl F) = some 0 ∧ (∀ c : ℝ, 1 ≤ c → channel (fin c : Fl F) = some 255) ∧
    channel (pinf : Fl F) = some 255 := by
  refine ⟨?_, fun c hc => ?_, ?_⟩
  · obtain ⟨b, hb, hb2⟩ := C88_value (F := F) 0 (le_refl _)
    rw [hb]
    simp at hb2
    exact congrArg some (UInt8.toNat_inj.1 (by simpa using hb2))
  · obtain ⟨b, hb, hb2⟩ := C88_value (F := F) c (by linarith)
    rw [hb]
    have h1 : 1 ≤ Real.sqrt c := by rw [Real.one_le_sqrt]; exact hc
    have : 255 ≤ ⌊255 * Real.sqrt c⌋₊ := Nat.le_floor (by push_cast; linarith)
    rw [min_eq_left this] at hb2
    exact congrArg some (UInt8.toNat_inj.1 (by simpa using hb2))
  · unfold channel
    obtain ⟨y, h1, -, -, -, h5⟩ := clamp_unit (F := F) (x := pinf) (by simp)
    rw [show Scalar.sqrt (pinf : Fl F) = pinf by simp, h1, h5 rfl, lit_small 255 (by norm_num)]
    obtain ⟨b, hb, hb2⟩ := toByte_fin (F := F) (z := 255) (by norm_num) (by norm_num)
    have : ((fin ((255 : ℕ) : ℝ) : Fl F) * fin 1) = fin 255 := by simp
    rw [this, hb]
    simp at hb2
    exact congrArg some (UInt8.toNat_inj.1 (by simpa using hb2))

/-- C88: a pixel is the three bytes of its colour, and opaque. -/
theorem C88_pixel [F.Rounding] (v : Vec (Fl F) 3) (h : ∀ i, Scalar.le (fin 0) (v i) = true) :
    ∃ p, to8bit v = some p ∧ channel (v 0) = some (p 0) ∧ channel (v 1) = some (p 1) ∧ channel (v 2) = some (p 2) ∧ p 3 = 255 := by
  obtain ⟨a, ha⟩ := C88_defined _ (h 0)
  obtain ⟨b, hb⟩ := C88_defined _ (h 1)
  obtain ⟨c, hc⟩ := C88_defined _ (h 2)
  exact ⟨![a, b, c, 255], by simp only [to8bit, ha, hb, hc], ha, hb, hc, rfl⟩

example : ∃ p, to8bit (cv ![0, 1 / 3, 7] : Vec (Fl binary32) 3) = some p ∧ p 3 = 255 := by
  obtain ⟨p, h, -, -, -, h3⟩ := C88_pixel (F := binary32) (cv ![0, 1 / 3, 7]) (by intro i; fin_cases i <;> simp [cv])
  exact ⟨p, h, h3⟩

/-- C88 fails for negative and NaN channels: the conversion to a byte is undefined, for every such channel. -/
theorem C88_negative_false : (∀ c : ℝ, c < 0 → channel (fin c : Fl F) = none) ∧ channel (Fl.nan : Fl F) = none ∧
    channel (ninf : Fl F) = none := by
  have key : ∀ c : Fl F, Scalar.sqrt c = Fl.nan → channel c = none := by
    intro c h
    unfold channel
    rw [h]
    simp only [Scalar.clamp]
    have h1 : ∀ x : Fl F, Scalar.lt (Fl.nan : Fl F) x = false := fun x => by cases x <;> rfl
    have h2 : ∀ x : Fl F, Scalar.lt x (Fl.nan : Fl F) = false := fun x => by cases x <;> rfl
    rw [h1, h2]
    simp only [Bool.false_eq_true, if_false]
    have h3 : ∀ x : Fl F, x * (Fl.nan : Fl F) = Fl.nan := fun x => by cases x <;> rfl
    rw [h3]
    rfl
  refine ⟨fun c hc => key _ ?_, key _ (by simp), key _ (by simp)⟩
  show (if c < 0 then Fl.nan else rnd F (Real.sqrt c)) = _
  rw [if_pos hc]

/-- A grey of one quarter becomes 127. -/
example : ∃ b, channel (fin (1 / 4) : Fl exact64) = some b ∧ b.toNat = 127 := by
  obtain ⟨b, h1, h2⟩ := C88_value (F := exact64) (1 / 4) (by norm_num)
  refine ⟨b, h1, ?_⟩
  rw [h2, show Real.sqrt (1 / 4) = 1 / 2 by rw [show (1 / 4 : ℝ) = (1 / 2) ^ 2 by norm_num, Real.sqrt_sq (by norm_num)],
    show ⌊(255 : ℝ) * (1 / 2)⌋₊ = 127 by rw [Nat.floor_eq_iff (by norm_num)]; norm_num]
  rfl

example : ∃ b, channel (fin 3 : Fl binary32) = some b := C88_defined (F := binary32) _ (by simp)

/-! ## C85 -/

/-- C85: in exact arithmetic the coordinates of the samples are finite, at least zero and less than `n/(n-1)`, for images of two or more
pixels; adjacent pixels have adjacent ranges. -/
theorem C85_range [F.Exact] (k n : ℕ) (hk : k < n) (hn : 2 ≤ n) (x : ℝ) (h0 : 0 ≤ x) (h1 : x < 1) :
    ∃ u : ℝ, Render.coordinate k n (fin x : Fl F) = fin u ∧ 0 ≤ u ∧ u < n / (n - 1) ∧ (k : ℝ) / (n - 1) ≤ u ∧ u < (k + 1) / (n - 1) := by
  have hn' : (2 : ℝ) ≤ n := by exact_mod_cast hn
  have hd : (0 : ℝ) < (n : ℝ) - 1 := by linarith
  have hk' : (k : ℝ) + 1 ≤ n := by exact_mod_cast hk
  refine ⟨(k + x) / (n - 1), ?_, by positivity, ?_, ?_, ?_⟩
  · unfold Render.coordinate
    rw [lit_def, lit_def]
    simp only [Rat.cast_natCast, Rat.cast_sub, Rat.cast_one]
    rw [Fl.add_fin, div_fin _ hd.ne']
  all_goals gcongr; first | linarith | skip

/-- C85: with a monotone rounding that is exact on the integers up to the size of the image, and a random number that may have been rounded
to 1, the coordinates are still finite and between 0 and 2. -/
theorem C85_rounded [F.Rounding] (k n : ℕ) (hk : k < n) (hn : 2 ≤ n) (hi : ∀ m : ℕ, m ≤ n → rnd F (m : ℝ) = fin (m : ℝ)) (x : ℝ)
    (h0 : 0 ≤ x) (h1 : x ≤ 1) : ∃ u : ℝ, Render.coordinate k n (fin x : Fl F) = fin u ∧ 0 ≤ u ∧ u ≤ 2 := by
  have e1 : (Scalar.lit (k : ℚ) : Fl F) = fin (k : ℝ) := by
    show rnd F (((k : ℚ)) : ℝ) = _
    rw [Rat.cast_natCast, hi k hk.le]
  have e2 : (Scalar.lit ((n : ℚ) - 1) : Fl F) = fin ((n - 1 : ℕ) : ℝ) := by
    show rnd F ((((n : ℚ) - 1 : ℚ)) : ℝ) = _
    rw [show ((((n : ℚ) - 1 : ℚ)) : ℝ) = ((n - 1 : ℕ) : ℝ) by push_cast [Nat.cast_sub (by omega : 1 ≤ n)]; rfl, hi _ (by omega)]
  obtain ⟨s, h2, h3, h4⟩ := rnd_between (F := F) (x := (k : ℝ) + x) (hi k hk.le) (hi (k + 1) hk) (by linarith) (by push_cast; linarith)
  have hd : (1 : ℝ) ≤ ((n - 1 : ℕ) : ℝ) := by exact_mod_cast (by omega : 1 ≤ n - 1)
  have hk' : ((k + 1 : ℕ) : ℝ) ≤ ((n - 1 : ℕ) : ℝ) + 1 := by exact_mod_cast (by omega : k + 1 ≤ n - 1 + 1)
  have hk0 : (0 : ℝ) ≤ k := by positivity
  obtain ⟨u, h5, h6, h7⟩ := rnd_between (F := F) (a := 0) (b := 2) (x := s / ((n - 1 : ℕ) : ℝ)) rnd_zero
    (by simpa using Fmt.Rounding.small (F := F) 2 (by norm_num)) (div_nonneg (by linarith) (by linarith))
    (by rw [div_le_iff₀ (by linarith)]; linarith)
  refine ⟨u, ?_, h6, h7⟩
  unfold Render.coordinate
  rw [e1, e2, show (fin (k : ℝ) : Fl F) + fin x = rnd F (k + x) from rfl, h2, ← h5, div_rounded _ (by linarith)]

/-- C85 fails for images one pixel wide or high: no coordinate is finite. -/
theorem C85_one_pixel_false [F.Exact] (x : Fl F) (u : ℝ) : Render.coordinate 0 1 x ≠ fin u := by
  unfold Render.coordinate
  rw [lit_def, lit_def]
  simp only [Nat.cast_zero, Nat.cast_one, sub_self, Rat.cast_zero]
  generalize (fin 0 : Fl F) + x = y
  cases y with
  | nan => simp
  | ninf =>
    show (if (0 : ℝ) = 0 then (if F.zdiv (-1) then pinf else ninf) else infOf (-0)) ≠ fin u
    rw [if_pos rfl]
    split <;> simp
  | pinf =>
    show (if (0 : ℝ) = 0 then (if F.zdiv 1 then pinf else ninf) else infOf 0) ≠ fin u
    rw [if_pos rfl]
    split <;> simp
  | fin a => exact fin_div_zero_ne a u

example : ∃ u : ℝ, Render.coordinate 1919 1920 (fin (1 / 2) : Fl exact64) = fin u ∧ 0 ≤ u ∧ u < 1920 / 1919 := by
  obtain ⟨u, h1, h2, h3, -⟩ := C85_range (F := exact64) 1919 1920 (by norm_num) (by norm_num) (1 / 2) (by norm_num) (by norm_num)
  exact ⟨u, h1, h2, by norm_num at h3 ⊢; exact h3⟩

/-- `double` is exact on the integers up to `2^53 - 1`, so `C85_rounded` covers every image of a realistic size. -/
example (k n : ℕ) (hk : k < n) (hn : 2 ≤ n) (hn' : n < 2 ^ 53) (x : ℝ) (h0 : 0 ≤ x) (h1 : x ≤ 1) :
    ∃ u : ℝ, Render.coordinate k n (fin x : Fl binary64) = fin u ∧ 0 ≤ u ∧ u ≤ 2 := by
  refine C85_rounded (F := binary64) k n hk hn (fun m hm => ?_) x h0 h1
  have := ieee_rep (p := 53) (emin := -1022) (emax := 1023) (m := m) (k := 0) (by omega) (by norm_num) (by
    have : (m : ℝ) < 2 ^ 53 := by exact_mod_cast (by omega : m < 2 ^ 53)
    calc (m : ℝ) * 2 ^ (0 : ℤ) < 2 ^ (53 : ℤ) := by rw [zpow_zero, mul_one]; exact_mod_cast this
      _ ≤ _ := zpow_le_zpow_right₀ (by norm_num) (by norm_num))
  rw [zpow_zero, mul_one] at this
  exact this

/-! ## C86 -/

/-- The loop over the times: a lower and an upper bound, each attained unless it is a starting value. -/
theorem costLoop [F.Exact] (cost : List ℝ) (a b : ℝ) :
    ∃ m M : ℝ, (cost.map (fin : ℝ → Fl F)).foldl (fun m t => (if Scalar.lt t m.1 then t else m.1, if gt t m.2 then t else m.2)) (fin a, fin b) =
      (fin m, fin M) ∧ m ≤ a ∧ b ≤ M ∧ (∀ t ∈ cost, m ≤ t ∧ t ≤ M) ∧ (m = a ∨ m ∈ cost) ∧ (M = b ∨ M ∈ cost) := by
  induction cost generalizing a b with
  | nil => exact ⟨a, b, rfl, le_refl _, le_refl _, by simp, Or.inl rfl, Or.inl rfl⟩
  | cons t cost ih =>
    have e1 : (if Scalar.lt (fin t : Fl F) (fin a) then (fin t : Fl F) else fin a) = fin (Min.min t a) := by
      rw [lt_fin]
      by_cases h : t < a
      · rw [if_pos (by simpa using h), min_eq_left h.le]
      · rw [if_neg (by simpa using h), min_eq_right (not_lt.1 h)]
    have e2 : (if gt (fin t : Fl F) (fin b) then (fin t : Fl F) else fin b) = fin (Max.max t b) := by
      unfold gt
      rw [lt_fin]
      by_cases h : b < t
      · rw [if_pos (by simpa using h), max_eq_left h.le]
      · rw [if_neg (by simpa using h), max_eq_right (not_lt.1 h)]
    obtain ⟨m, M, h1, h2, h3, h4, h5, h6⟩ := ih (Min.min t a) (Max.max t b)
    refine ⟨m, M, ?_, h2.trans (min_le_right _ _), (le_max_right _ _).trans h3, ?_, ?_, ?_⟩
    · rw [List.map_cons, List.foldl_cons, e1, e2, h1]
    · intro x hx
      rcases List.mem_cons.1 hx with rfl | hx
      · exact ⟨h2.trans (min_le_left _ _), (le_max_left _ _).trans h3⟩
      · exact h4 x hx
    · rcases h5 with h | h
      · rcases min_choice t a with h' | h' <;> rw [h'] at h
        · exact Or.inr (by simp [h])
        · exact Or.inl h
      · exact Or.inr (by simp [h])
    · rcases h6 with h | h
      · rcases max_choice t b with h' | h' <;> rw [h'] at h
        · exact Or.inr (by simp [h])
        · exact Or.inl h
      · exact Or.inr (by simp [h])

/-- C86: if the times are not all the same, they are scaled to the unit interval: the least becomes 0, the greatest 1, and the others are
interpolated linearly. -/
theorem C86_range [F.Exact] (cost : List ℝ) (h0 : ∀ t ∈ cost, 0 ≤ t ∧ t ≤ F.big) (a b : ℝ) (ha : a ∈ cost) (hb : b ∈ cost) (hab : a ≠ b) :
    ∃ lo ∈ cost, ∃ hi ∈ cost, lo < hi ∧ ∀ t ∈ cost, lo ≤ t ∧ t ≤ hi ∧
      Render.costScalar (cost.map (fin : ℝ → Fl F)) (fin t) = fin ((t - lo) / (hi - lo)) ∧ 0 ≤ (t - lo) / (hi - lo) ∧ (t - lo) / (hi - lo) ≤ 1 := by
  obtain ⟨m, M, h1, h2, h3, h4, h5, h6⟩ := costLoop (F := F) cost F.big 0
  have hm : m ∈ cost := by
    rcases h5 with h | h
    · have h7 := (h4 a ha).1
      have h8 := (h0 a ha).2
      have : a = m := by linarith
      exact this ▸ ha
    · exact h
  have hlt : m < M := by
    have := h4 a ha
    have := h4 b hb
    rcases lt_or_gt_of_ne hab with h | h <;> linarith
  have hM : M ∈ cost := by
    rcases h6 with h | h
    · have := (h0 m hm).1
      linarith
    · exact h
  have hr : Render.costRange (cost.map (fin : ℝ → Fl F)) = (fin m, fin M) := by
    unfold Render.costRange
    rw [show (Scalar.big : Fl F) = fin F.big from rfl, ofNat_zero]
    simp only [h1]
    rw [lt_fin, if_neg (by simpa using (h0 m hm).1)]
  refine ⟨m, hm, M, hM, hlt, fun t ht => ⟨(h4 t ht).1, (h4 t ht).2, ?_, ?_, ?_⟩⟩
  · unfold Render.costScalar
    rw [hr]
    simp only
    rw [Fl.sub_fin, Fl.sub_fin, div_fin _ (by linarith)]
  · exact div_nonneg (by linarith [(h4 t ht).1]) (by linarith)
  · rw [div_le_one (by linarith)]; linarith [(h4 t ht).2]

/-- C86 fails whenever all times are the same, for example for an image of one pixel: the scalar is NaN. -/
theorem C86_constant_false [F.Exact] (n : ℕ) (c : ℝ) (h0 : 0 ≤ c) (h1 : c ≤ F.big) :
    Render.costScalar (List.replicate (n + 1) (fin c : Fl F)) (fin c) = Fl.nan := by
  obtain ⟨m, M, e, h2, h3, h4, h5, h6⟩ := costLoop (F := F) (List.replicate (n + 1) c) F.big 0
  have hc := h4 c (by simp)
  have hm : m = c := by
    rcases h5 with h | h
    · linarith
    · exact List.eq_of_mem_replicate h
  have hM : M = c := by
    rcases h6 with h | h
    · linarith
    · exact List.eq_of_mem_replicate h
  subst hm
  subst hM
  rw [List.map_replicate] at e
  unfold Render.costScalar Render.costRange
  rw [show (Scalar.big : Fl F) = fin F.big from rfl, ofNat_zero]
  simp only [e]
  rw [lt_fin, if_neg (by simpa using h0), Fl.sub_fin, sub_self]
  simp

example : ∃ lo ∈ [(3 : ℝ), 1, 2], ∃ hi ∈ [(3 : ℝ), 1, 2], lo < hi ∧ ∀ t ∈ [(3 : ℝ), 1, 2], lo ≤ t ∧ t ≤ hi ∧
    Render.costScalar (([(3 : ℝ), 1, 2]).map (fin : ℝ → Fl exact64)) (fin t) = fin ((t - lo) / (hi - lo)) ∧
      0 ≤ (t - lo) / (hi - lo) ∧ (t - lo) / (hi - lo) ≤ 1 :=
  C86_range (F := exact64) [3, 1, 2] (by
    have : (3 : ℝ) ≤ exact64.big := by
      have h : (2 : ℝ) ^ 2 ≤ 2 ^ 1023 := pow_le_pow_right₀ (by norm_num) (by norm_num)
      show (3 : ℝ) ≤ (2 - 1 / 2 ^ 52) * 2 ^ 1023
      generalize (2 : ℝ) ^ 1023 = B at h
      norm_num
      linarith
    intro t ht
    simp only [List.mem_cons, List.not_mem_nil, or_false] at ht
    rcases ht with rfl | rfl | rfl <;> constructor <;> linarith) 3 1 (by simp) (by simp) (by norm_num)

/-! ## C87 -/

/-- C87: the name of the cost image is different from that of the image, whatever the name is. (The length of a string is below `2^64`.) -/
theorem C87_differs (name : List Char) (h : name.length < 2 ^ 64) : Render.costFilename name ≠ name := by
  intro he
  have hl := congrArg List.length he
  unfold Render.costFilename at hl
  rw [List.length_append, List.length_take] at hl
  have h9 : "_cost.png".toList.length = 9 := by decide
  rw [h9] at hl
  rcases Nat.lt_or_ge name.length 4 with h4 | h4 <;> omega

example : Render.costFilename "render.png".toList ≠ "render.png".toList := C87_differs _ (by decide)

/-- C87: it is the name with its extension of three letters replaced. -/
theorem C87_extension (stem ext : List Char) (he : ext.length = 4) (h : stem.length + 4 < 2 ^ 64) :
    Render.costFilename (stem ++ ext) = stem ++ "_cost.png".toList := by
  unfold Render.costFilename
  have : ((stem ++ ext).length + (2 ^ 64 - 4)) % 2 ^ 64 = stem.length := by
    rw [List.length_append, he]; omega
  rw [this, List.take_left']
  rfl

/-- C87: a name too short for an extension is kept whole. -/
theorem C87_short (name : List Char) (h : name.length < 4) : Render.costFilename name = name ++ "_cost.png".toList := by
  unfold Render.costFilename
  rw [List.take_of_length_le (by omega)]

example : Render.costFilename "torus.png".toList = "torus_cost.png".toList := C87_extension "torus".toList ".png".toList rfl (by decide)

/-! ## C92 -/

/-- The bar of a rounded percentage. -/
theorem progress_eq [F.Rounding] (p : ℝ) (h0 : 0 ≤ p) (h1 : p ≤ 1) : ∃ z : ℝ, rnd F (100 * p) = fin z ∧ 0 ≤ z ∧ ⌊z⌋₊ ≤ 100 ∧
    displayProgress (fin p : Fl F) =
      some (List.replicate ⌊z⌋₊ '=' ++ (if ⌊z⌋₊ < 100 then '>' :: List.replicate (99 - ⌊z⌋₊) ' ' else []), (⌊z⌋₊ : ℤ)) := by
  obtain ⟨z, h2, h3, h4⟩ := rnd_between (F := F) (a := 0) (b := 100) (x := 100 * p) rnd_zero
    (by simpa using Fmt.Rounding.small (F := F) 100 (by norm_num)) (by positivity) (by linarith)
  have hn : ⌊z⌋₊ ≤ 100 := by
    have : ⌊z⌋₊ ≤ ⌊(100 : ℝ)⌋₊ := Nat.floor_le_floor h4
    simpa using this
  refine ⟨z, h2, h3, hn, ?_⟩
  have e1 : (100 : Fl F) * fin p = fin z := by
    rw [lit_small 100 (by norm_num), ← h2]; norm_num; rfl
  have e2 : fin p * (100 : Fl F) = fin z := by
    rw [lit_small 100 (by norm_num), ← h2, mul_comm (100 : ℝ)]; norm_num; rfl
  have ht : Scalar.toInt (fin z : Fl F) = some ((⌊z⌋₊ : ℕ) : ℤ) := by
    rw [toInt_fin, if_pos h3, Int.natCast_floor_eq_floor h3]
  unfold displayProgress
  rw [e1, e2, ht]
  generalize ⌊z⌋₊ = n at hn
  simp only
  rw [if_pos (by omega)]
  congr 2
  interval_cases n <;> decide

/-- C92: for progress from 0 to 1 and any monotone rounding, the bar is defined: its hundred characters are some `=`, then `>` if there is
room, then blanks; the number of `=` is the percentage printed, at most 100. -/
theorem C92_bar [F.Rounding] (p : ℝ) (h0 : 0 ≤ p) (h1 : p ≤ 1) : ∃ n : ℕ, n ≤ 100 ∧
    displayProgress (fin p : Fl F) = some (List.replicate n '=' ++ (if n < 100 then '>' :: List.replicate (99 - n) ' ' else []), (n : ℤ)) := by
  obtain ⟨z, -, -, h3, h4⟩ := progress_eq (F := F) p h0 h1
  exact ⟨⌊z⌋₊, h3, h4⟩

example : ∃ n : ℕ, n ≤ 100 ∧ displayProgress (fin (1 / 3) : Fl binary32) =
    some (List.replicate n '=' ++ (if n < 100 then '>' :: List.replicate (99 - n) ' ' else []), (n : ℤ)) :=
  C92_bar _ (by norm_num) (by norm_num)

/-- C92: in exact arithmetic the percentage is `⌊100p⌋`. -/
theorem C92_percent [F.Exact] (p : ℝ) (h0 : 0 ≤ p) (h1 : p ≤ 1) :
    ∃ bar, displayProgress (fin p : Fl F) = some (bar, ⌊100 * p⌋) ∧ bar.length = 100 ∧ bar.count '=' = ⌊100 * p⌋₊ := by
  obtain ⟨z, h2, h3, h4, h5⟩ := progress_eq (F := F) p h0 h1
  rw [rnd_eq, fin_inj] at h2
  subst h2
  refine ⟨_, by rw [h5, Int.natCast_floor_eq_floor h3], ?_, ?_⟩
  · split
    · simp; omega
    · simp; omega
  · split <;> simp [List.count_replicate]

/-- Halfway: fifty `=`. -/
example : ∃ bar, displayProgress (fin (1 / 2) : Fl exact64) = some (bar, 50) ∧ bar.length = 100 ∧ bar.count '=' = 50 := by
  obtain ⟨bar, h1, h2, h3⟩ := C92_percent (F := exact64) (1 / 2) (by norm_num) (by norm_num)
  refine ⟨bar, ?_, h2, ?_⟩
  · rw [h1]; norm_num
  · rw [h3]; norm_num

/-- C92: a bar is a hundred characters, whatever the progress. -/
theorem C92_length {R : Type} [Scalar R] (p : R) (bar : List Char) (n : ℤ) (h : displayProgress p = some (bar, n)) : bar.length = 100 := by
  unfold displayProgress at h
  split at h
  · split at h
    · simp only [Option.some.injEq, Prod.mk.injEq] at h
      rw [← h.1, List.length_map, List.length_range]
    · cases h
  · cases h

example : ∃ bar n, displayProgress (fin (1 / 3) : Fl binary32) = some (bar, n) ∧ bar.length = 100 := by
  obtain ⟨n, -, h⟩ := C92_bar (F := binary32) (1 / 3) (by norm_num) (by norm_num)
  exact ⟨_, _, h, C92_length _ _ _ h⟩

end DRT
