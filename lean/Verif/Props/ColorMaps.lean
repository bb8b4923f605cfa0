import Verif.Model.ColorMaps
import Verif.Props.Png

/-! # C89, C90: the colour maps -/

namespace DRT
open Scalar Fl ColorTables

variable {F : Fmt}

/-- The seven colour maps with their tables. -/
def colorMaps : List (List ℕ × List ℕ × List ℕ) :=
  [(plasma_r, plasma_g, plasma_b), (viridis_r, viridis_g, viridis_b), (inferno_r, inferno_g, inferno_b),
    (blackbody_r, blackbody_g, blackbody_b), (kindlmann_r, kindlmann_g, kindlmann_b),
    (extended_kindlmann_r, extended_kindlmann_g, extended_kindlmann_b), (smooth_cool_warm_r, smooth_cool_warm_g, smooth_cool_warm_b)]

/-- What is needed of a table: 256 entries from 0 to 1, and neighbours differ by at most 0.1764. -/
def GoodTable (T : List ℕ) : Prop := T.length = 256 ∧ (∀ n ∈ T, n ≤ 10 ^ 20) ∧
  (T.zip T.tail).all (fun p => decide (p.1 ≤ p.2 + 17640000000000000000 ∧ p.2 ≤ p.1 + 17640000000000000000)) = true

instance (T : List ℕ) : Decidable (GoodTable T) := by unfold GoodTable; infer_instance

theorem colorMaps_good : ∀ m ∈ colorMaps, GoodTable m.1 ∧ GoodTable m.2.1 ∧ GoodTable m.2.2 := by
  decide +kernel

/-- The seven functions of the model are the maps of these tables. -/
theorem colorMaps_eq {R : Type} [Scalar R] : colorMaps.map (fun m => (tableMap m.1 m.2.1 m.2.2 : R → Option (Vec R 3))) =
    [plasma, viridis, inferno, blackbody, kindlmann, extendedKindlmann, smoothCoolWarm] := rfl

/-- The `i`-th entry of a table as a number. -/
noncomputable def valueAt (T : List ℕ) (i : ℕ) : ℝ := (T.getD i 0 : ℝ) / 10 ^ 20

/-- Linear interpolation of a table. -/
noncomputable def interpolate (T : List ℕ) (y : ℝ) : ℝ := (1 - Int.fract y) * valueAt T ⌊y⌋₊ + Int.fract y * valueAt T (⌊y⌋₊ + 1)

theorem valueAt_range {T : List ℕ} (h : GoodTable T) (i : ℕ) : 0 ≤ valueAt T i ∧ valueAt T i ≤ 1 := by
  unfold valueAt
  refine ⟨by positivity, ?_⟩
  rw [div_le_one (by positivity)]
  rw [List.getD_eq_getElem?_getD]
  rcases Nat.lt_or_ge i T.length with hi | hi
  · rw [List.getElem?_eq_getElem hi, Option.getD_some]
    exact_mod_cast h.2.1 _ (List.getElem_mem hi)
  · rw [List.getElem?_eq_none hi, Option.getD_none]
    norm_num

theorem entry_eq [F.Exact] {T : List ℕ} (h : GoodTable T) {i : ℕ} (hi : i ≤ 255) : (entry T (i : ℤ) : Option (Fl F)) = some (fin (valueAt T i)) := by
  have hl : i < T.length := by rw [h.1]; omega
  unfold entry valueAt
  rw [if_pos (by positivity), Int.toNat_natCast, List.getD_eq_getElem?_getD, List.getElem?_eq_getElem hl, Option.map_some, Option.getD_some, lit_def]
  push_cast
  rfl

theorem interpolate_last (T : List ℕ) (n : ℕ) : interpolate T n = valueAt T n := by
  unfold interpolate
  simp

theorem channelAt_eq [F.Exact] {T : List ℕ} (h : GoodTable T) {y : ℝ} (h0 : 0 ≤ y) (h1 : y < 255) :
    channelAt T ⌊y⌋ (fin y - fin (⌊y⌋ : ℤ) : Fl F) = some (fin (interpolate T y)) := by
  have hi : ⌊y⌋₊ < 255 := by rw [Nat.floor_lt h0]; exact_mod_cast h1
  have e : ⌊y⌋ = ((⌊y⌋₊ : ℕ) : ℤ) := (Int.natCast_floor_eq_floor h0).symm
  unfold channelAt
  have e1 : (entry T ⌊y⌋ : Option (Fl F)) = some (fin (valueAt T ⌊y⌋₊)) := by rw [e]; exact entry_eq h hi.le
  have e2 : (entry T (⌊y⌋ + 1) : Option (Fl F)) = some (fin (valueAt T (⌊y⌋₊ + 1))) := by
    rw [e]; exact_mod_cast entry_eq (F := F) h (i := ⌊y⌋₊ + 1) (by omega)
  rw [e1, e2]
  simp only [Option.some.injEq]
  rw [ofNat_one, Fl.sub_fin, Fl.sub_fin, Fl.mul_fin, Fl.mul_fin, Fl.add_fin]
  rfl

/-- The model in exact arithmetic: interpolation at 255 times the clamped scalar. -/
theorem tableMap_eq [F.Exact] {r g b : List ℕ} (hr : GoodTable r) (hg : GoodTable g) (hb : GoodTable b) (x : ℝ) :
    tableMap r g b (fin x : Fl F) = some (cv ![interpolate r (255 * Max.max 0 (Min.min x 1)), interpolate g (255 * Max.max 0 (Min.min x 1)),
      interpolate b (255 * Max.max 0 (Min.min x 1))]) := by
  have hc : Scalar.clamp (fin x : Fl F) 0 1 = fin (Max.max 0 (Min.min x 1)) := by
    unfold Scalar.clamp
    rw [ofNat_zero, ofNat_one, lt_fin, lt_fin]
    rcases lt_or_ge x 0 with h | h
    · rw [if_pos (by simpa using h), max_eq_left ((min_le_left _ _).trans h.le)]
    · rw [if_neg (by simpa using h)]
      rcases lt_or_ge 1 x with h1 | h1
      · rw [if_pos (by simpa using h1), min_eq_right h1.le, max_eq_right (by norm_num)]
      · rw [if_neg (by simpa using h1), min_eq_left h1, max_eq_right h]
  unfold tableMap
  simp only [hc]
  have h0 : 0 ≤ Max.max 0 (Min.min x 1) := le_max_left _ _
  have h1 : Max.max 0 (Min.min x 1) ≤ 1 := max_le (by norm_num) (min_le_right _ _)
  generalize Max.max 0 (Min.min x 1) = c at h0 h1
  have heq : Scalar.eq (fin c : Fl F) 1 = decide (c = 1) := by rw [ofNat_one]; simp
  rw [heq]
  by_cases h : c = 1
  · subst h
    have hl : ∀ {T : List ℕ}, GoodTable T → (entry T ((T.length : ℤ) - 1) : Option (Fl F)) = some (fin (interpolate T (255 * 1))) := by
      intro T hT
      rw [hT.1]
      have := entry_eq (F := F) hT (i := 255) (le_refl _)
      have h2 := interpolate_last T 255
      push_cast at this h2 ⊢
      norm_num
      rw [h2]
      exact this
    simp only [decide_true, if_true]
    rw [hl hr, hl hg, hl hb]
    simp only [Option.some.injEq]
    rw [cv_vec3]
  · have h2 : c < 1 := lt_of_le_of_ne h1 h
    rw [decide_eq_false h]
    simp only [Bool.false_eq_true, if_false]
    have e : (255 : Fl F) * fin c = fin (255 * c) := by rw [ofNat_def]; simp
    rw [e, floor_fin, toInt_fin]
    have hf0 : (0 : ℤ) ≤ ⌊255 * c⌋ := Int.floor_nonneg.2 (by positivity)
    have hf1 : ⌊255 * c⌋ < 255 := by rw [Int.floor_lt]; push_cast; linarith
    rw [if_pos (by exact_mod_cast hf0), Int.floor_intCast]
    simp only
    rw [if_pos ⟨by omega, by omega⟩, channelAt_eq hr (by positivity) (by linarith), channelAt_eq hg (by positivity) (by linarith),
      channelAt_eq hb (by positivity) (by linarith)]
    simp only [Option.some.injEq]
    rw [cv_vec3]

theorem interpolate_range {T : List ℕ} (h : GoodTable T) (y : ℝ) : 0 ≤ interpolate T y ∧ interpolate T y ≤ 1 := by
  unfold interpolate
  have h1 := Int.fract_nonneg y
  have h2 := (Int.fract_lt_one y).le
  have a := valueAt_range h ⌊y⌋₊
  have b := valueAt_range h (⌊y⌋₊ + 1)
  constructor
  · nlinarith [mul_nonneg (sub_nonneg.2 h2) a.1, mul_nonneg h1 b.1]
  · nlinarith [mul_nonneg (sub_nonneg.2 h2) (sub_nonneg.2 a.2), mul_nonneg h1 (sub_nonneg.2 b.2)]

/-- C89: for every scalar that is not NaN, each of the seven maps reads only entries of its tables (reading elsewhere would be `none`) and
returns a colour with channels from 0 to 1. -/
theorem C89_range [F.Exact] (m : Fl F → Option (Vec (Fl F) 3))
    (hm : m ∈ [plasma, viridis, inferno, blackbody, kindlmann, extendedKindlmann, smoothCoolWarm]) (x : Fl F) (hx : isNaN x = false) :
    ∃ v : Fin 3 → ℝ, m x = some (cv v) ∧ ∀ i, 0 ≤ v i ∧ v i ≤ 1 := by
  rw [← colorMaps_eq] at hm
  obtain ⟨⟨r, g, b⟩, hmem, rfl⟩ := List.mem_map.1 hm
  obtain ⟨hr, hg, hb⟩ := colorMaps_good _ hmem
  have key : ∀ a : ℝ, ∃ v : Fin 3 → ℝ, tableMap r g b (fin a : Fl F) = some (cv v) ∧ ∀ i, 0 ≤ v i ∧ v i ≤ 1 := fun a =>
    ⟨_, tableMap_eq hr hg hb a, fun i => by
      fin_cases i
      · exact interpolate_range hr _
      · exact interpolate_range hg _
      · exact interpolate_range hb _⟩
  cases x with
  | nan => simp at hx
  | fin a => exact key a
  | pinf =>
    have : tableMap r g b (pinf : Fl F) = tableMap r g b (fin 1) := by
      unfold tableMap
      rw [show Scalar.clamp (pinf : Fl F) 0 1 = Scalar.clamp (fin 1 : Fl F) 0 1 by unfold Scalar.clamp; rw [ofNat_zero, ofNat_one]; simp]
    simp only [this]
    exact key 1
  | ninf =>
    have : tableMap r g b (ninf : Fl F) = tableMap r g b (fin 0) := by
      unfold tableMap
      rw [show Scalar.clamp (ninf : Fl F) 0 1 = Scalar.clamp (fin 0 : Fl F) 0 1 by unfold Scalar.clamp; rw [ofNat_zero, ofNat_one]; simp]
    simp only [this]
    exact key 0

example : ∃ v : Fin 3 → ℝ, viridis (fin (1 / 3) : Fl exact64) = some (cv v) ∧ ∀ i, 0 ≤ v i ∧ v i ≤ 1 :=
  C89_range viridis (by simp) _ rfl

/-- C89: scalars outside the unit interval have the colour of its nearer end. -/
theorem C89_clamped [F.Exact] (m : Fl F → Option (Vec (Fl F) 3))
    (hm : m ∈ [plasma, viridis, inferno, blackbody, kindlmann, extendedKindlmann, smoothCoolWarm]) (x : ℝ) :
    (x ≤ 0 → m (fin x) = m (fin 0)) ∧ (1 ≤ x → m (fin x) = m (fin 1)) := by
  rw [← colorMaps_eq] at hm
  obtain ⟨⟨r, g, b⟩, hmem, rfl⟩ := List.mem_map.1 hm
  obtain ⟨hr, hg, hb⟩ := colorMaps_good _ hmem
  refine ⟨fun h => ?_, fun h => ?_⟩
  · have e : Max.max 0 (Min.min x 1) = Max.max 0 (Min.min 0 1) := by
      rw [max_eq_left ((min_le_left _ _).trans h), max_eq_left (min_le_left _ _)]
    simp only [tableMap_eq hr hg hb, e]
  · have e : Max.max 0 (Min.min x 1) = Max.max 0 (Min.min 1 1) := by rw [min_eq_right h, min_self]
    simp only [tableMap_eq hr hg hb, e]

example : viridis (fin (-7) : Fl exact64) = viridis (fin 0) ∧ plasma (fin 3 : Fl exact64) = plasma (fin 1) :=
  ⟨(C89_clamped viridis (by simp) (-7)).1 (by norm_num), (C89_clamped plasma (by simp) 3).2 (by norm_num)⟩

/-- C89: with a monotone rounding, the maps are defined for every scalar that is not NaN, with finite channels that are not negative, provided
`255 * s` is not rounded up to 255 when `s < 1`. (The two rounded products may add up to slightly more than 1.) -/
theorem C89_rounded [F.Rounding] (m : Fl F → Option (Vec (Fl F) 3))
    (hm : m ∈ [plasma, viridis, inferno, blackbody, kindlmann, extendedKindlmann, smoothCoolWarm]) (x : Fl F) (hx : isNaN x = false)
    (hup : ∀ s : ℝ, x = fin s → s < 1 → rnd F (255 * s) ≠ fin 255) : ∃ v : Fin 3 → ℝ, m x = some (cv v) ∧ ∀ i, 0 ≤ v i ∧ v i ≤ 2 := by
  rw [← colorMaps_eq] at hm
  obtain ⟨⟨r, g, b⟩, hmem, rfl⟩ := List.mem_map.1 hm
  obtain ⟨hr, hg, hb⟩ := colorMaps_good _ hmem
  have hent : ∀ {T : List ℕ}, GoodTable T → ∀ i : ℕ, i ≤ 255 → ∃ a : ℝ, (entry T (i : ℤ) : Option (Fl F)) = some (fin a) ∧ 0 ≤ a ∧ a ≤ 1 := by
    intro T hT i hi
    have hl : i < T.length := by rw [hT.1]; omega
    obtain ⟨v1, v2⟩ := valueAt_range hT i
    obtain ⟨a, h1, h2, h3⟩ := rnd_between (F := F) rnd_zero rnd_one v1 v2
    refine ⟨a, ?_, h2, h3⟩
    unfold entry
    rw [if_pos (by positivity), Int.toNat_natCast, List.getElem?_eq_getElem hl, Option.map_some, Option.some.injEq, ← h1]
    show rnd F _ = _
    unfold valueAt
    rw [List.getD_eq_getElem?_getD, List.getElem?_eq_getElem hl, Option.getD_some]
    push_cast
    rfl
  have hmul : ∀ a b : ℝ, 0 ≤ a → a ≤ 1 → 0 ≤ b → b ≤ 1 → ∃ c : ℝ, (fin a : Fl F) * fin b = fin c ∧ 0 ≤ c ∧ c ≤ 1 := fun a b h1 h2 h3 h4 =>
    rnd_between (F := F) rnd_zero rnd_one (mul_nonneg h1 h3) (by nlinarith)
  have hch : ∀ {T : List ℕ}, GoodTable T → ∀ i : ℕ, i < 255 → ∀ t : ℝ, 0 ≤ t → t ≤ 1 → ∃ a : ℝ,
      channelAt T (i : ℤ) (fin t : Fl F) = some (fin a) ∧ 0 ≤ a ∧ a ≤ 2 := by
    intro T hT i hi t ht0 ht1
    obtain ⟨a, a1, a2, a3⟩ := hent hT i hi.le
    obtain ⟨b, b1, b2, b3⟩ := hent hT (i + 1) hi
    obtain ⟨c, c1, c2, c3⟩ := rnd_between (F := F) (x := 1 - t) rnd_zero rnd_one (by linarith) (by linarith)
    obtain ⟨d, d1, d2, d3⟩ := hmul c a c2 c3 a2 a3
    obtain ⟨e, e1, e2, e3⟩ := hmul t b ht0 ht1 b2 b3
    obtain ⟨f, f1, f2, f3⟩ := rnd_between (F := F) (a := 0) (b := 2) (x := d + e) rnd_zero
      (by simpa using Fmt.Rounding.small (F := F) 2 (by norm_num)) (by linarith) (by linarith)
    refine ⟨f, ?_, f2, f3⟩
    unfold channelAt
    rw [a1, show ((i : ℤ) + 1) = ((i + 1 : ℕ) : ℤ) by push_cast; rfl, b1]
    simp only [Option.some.injEq]
    rw [rone, show (fin 1 : Fl F) - fin t = rnd F (1 - t) from rfl, c1, d1, e1, ← f1]
    rfl
  have key : ∀ c : ℝ, 0 ≤ c → c ≤ 1 → (c < 1 → rnd F (255 * c) ≠ fin 255) → ∀ x : Fl F, Scalar.clamp x 0 1 = fin c →
      ∃ v : Fin 3 → ℝ, tableMap r g b x = some (cv v) ∧ ∀ i, 0 ≤ v i ∧ v i ≤ 2 := by
    intro c h0 h1 hup x hxc
    unfold tableMap
    simp only [hxc]
    have heq : Scalar.eq (fin c : Fl F) 1 = decide (c = 1) := by rw [rone]; simp
    rw [heq]
    by_cases h : c = 1
    · simp only [h, decide_true, if_true]
      obtain ⟨a1, e1, a2, a3⟩ := hent hr 255 (le_refl _)
      obtain ⟨b1, e2, b2, b3⟩ := hent hg 255 (le_refl _)
      obtain ⟨c1, e3, c2, c3⟩ := hent hb 255 (le_refl _)
      have k : ∀ {T : List ℕ}, GoodTable T → ((T.length : ℤ) - 1) = ((255 : ℕ) : ℤ) := fun hT => by rw [hT.1]; rfl
      rw [k hr, k hg, k hb, e1, e2, e3]
      refine ⟨![a1, b1, c1], by simp only [cv_vec3], fun i => ?_⟩
      fin_cases i
      · exact ⟨a2, by simpa using a3.trans one_le_two⟩
      · exact ⟨b2, by simpa using b3.trans one_le_two⟩
      · exact ⟨c2, by simpa using c3.trans one_le_two⟩
    · rw [decide_eq_false h]
      simp only [Bool.false_eq_true, if_false]
      have hlt : c < 1 := lt_of_le_of_ne h1 h
      obtain ⟨z, z1, z2, z3⟩ := rnd_between (F := F) (a := 0) (b := 255) (x := 255 * c) rnd_zero
        (by simpa using Fmt.Rounding.small (F := F) 255 (by norm_num)) (by positivity) (by linarith)
      have z4 : z < 255 := lt_of_le_of_ne z3 fun he => hup hlt (by rw [z1, he])
      have e : (255 : Fl F) * fin c = fin z := by
        rw [lit_small 255 (by norm_num), ← z1]; norm_num; rfl
      have hi : ⌊z⌋₊ < 255 := by rw [Nat.floor_lt z2]; exact_mod_cast z4
      have hfl : ⌊z⌋ = ((⌊z⌋₊ : ℕ) : ℤ) := (Int.natCast_floor_eq_floor z2).symm
      obtain ⟨t, t1, t2, t3⟩ := rnd_between (F := F) (x := z - (⌊z⌋ : ℤ)) rnd_zero rnd_one (by linarith [Int.floor_le z])
        (by linarith [Int.lt_floor_add_one z])
      rw [e, floor_fin, toInt_fin, show (fin z : Fl F) - fin ((⌊z⌋ : ℤ) : ℝ) = rnd F (z - (⌊z⌋ : ℤ)) from rfl, t1]
      rw [if_pos (by exact_mod_cast Int.floor_nonneg.2 z2), Int.floor_intCast]
      simp only
      obtain ⟨a1, e1, a2, a3⟩ := hch hr ⌊z⌋₊ hi t t2 t3
      obtain ⟨b1, e2, b2, b3⟩ := hch hg ⌊z⌋₊ hi t t2 t3
      obtain ⟨c1, e3, c2, c3⟩ := hch hb ⌊z⌋₊ hi t t2 t3
      rw [hfl, if_pos ⟨by omega, by omega⟩, e1, e2, e3]
      refine ⟨![a1, b1, c1], by simp only [cv_vec3], fun i => ?_⟩
      fin_cases i
      · exact ⟨a2, a3⟩
      · exact ⟨b2, b3⟩
      · exact ⟨c2, c3⟩
  cases x with
  | nan => simp at hx
  | ninf =>
    refine key 0 (le_refl _) zero_le_one (fun _ h => ?_) _ (by unfold Scalar.clamp; rw [rzero, rone]; simp)
    rw [mul_zero, rnd_zero, fin_inj] at h
    norm_num at h
  | pinf => exact key 1 zero_le_one (le_refl _) (fun h => absurd h (lt_irrefl _)) _ (by unfold Scalar.clamp; rw [rzero, rone]; simp)
  | fin a =>
    rcases lt_or_ge a 0 with h | h
    · refine key 0 (le_refl _) zero_le_one (fun _ h => ?_) _ (by unfold Scalar.clamp; rw [rzero, rone, lt_fin, if_pos (by simpa using h)])
      rw [mul_zero, rnd_zero, fin_inj] at h
      norm_num at h
    · rcases lt_or_ge 1 a with h1 | h1
      · exact key 1 zero_le_one (le_refl _) (fun h => absurd h (lt_irrefl _)) _
          (by unfold Scalar.clamp; rw [rzero, rone, lt_fin, lt_fin, if_neg (by simpa using h), if_pos (by simpa using h1)])
      · exact key a h h1 (hup a rfl) _
          (by unfold Scalar.clamp; rw [rzero, rone, lt_fin, lt_fin, if_neg (by simpa using h), if_neg (by simpa using h1)])

/-- In single precision at a negative number, where no product can round up to 255. -/
example : ∃ v : Fin 3 → ℝ, inferno (fin (-1) : Fl binary32) = some (cv v) ∧ ∀ i, 0 ≤ v i ∧ v i ≤ 2 := by
  refine C89_rounded inferno (by simp) _ rfl fun s hs _ h => ?_
  rw [fin_inj] at hs
  have h1 := rnd_nonpos (F := binary32) (x := 255 * s) (by rw [← hs]; norm_num)
  rw [h, le_fin, decide_eq_true_eq] at h1
  norm_num at h1

/-- The largest number below 1 with `p` bits. -/
theorem ieee_below_one {p : ℕ} {emin emax : ℤ} (hp : 1 ≤ p) (he : emin ≤ -1) {s : ℝ} (h0 : 0 ≤ s) (h1 : s < 1)
    (hs : rnd (ieee p emin emax) s = fin s) : s ≤ 1 - 2 ^ (-(p : ℤ)) := by
  have hhalf : (2 : ℝ) ^ (-(p : ℤ)) ≤ 1 / 2 := by
    calc (2 : ℝ) ^ (-(p : ℤ)) ≤ 2 ^ (-1 : ℤ) := zpow_le_zpow_right₀ (by norm_num) (by omega)
      _ = 1 / 2 := by norm_num
  rcases lt_or_ge s (1 / 2) with h | h
  · linarith
  · have hl : Int.log 2 s = -1 := by
      apply le_antisymm
      · have : Int.log 2 s < 0 := (Int.lt_zpow_iff_log_lt (by norm_num) (by linarith)).1 (by simpa using h1)
        omega
      · exact (Int.zpow_le_iff_le_log (by norm_num) (by linarith)).1 (by norm_num; linarith)
    have hlp : lastPlace p emin s = -(p : ℤ) := by unfold lastPlace; rw [hl, max_eq_left he]; ring
    have hr : roundPos p emin s = s := by
      rw [ieee_round_nonneg h0] at hs
      split at hs
      · rwa [fin_inj] at hs
      · simp at hs
    unfold roundPos at hr
    rw [hlp] at hr
    generalize roundEven (s / 2 ^ (-(p : ℤ))) = k at hr
    have hpos := two_zpow_pos (-(p : ℤ))
    have hk : (k : ℝ) < 2 ^ p := by
      have : (k : ℝ) * 2 ^ (-(p : ℤ)) < 1 := by rw [hr]; exact h1
      rw [zpow_neg, zpow_natCast, ← div_eq_mul_inv, div_lt_one (by positivity)] at this
      exact this
    have hk' : k ≤ 2 ^ p - 1 := by
      have : k < 2 ^ p := by exact_mod_cast hk
      omega
    have hk'' : (k : ℝ) ≤ 2 ^ p - 1 := by exact_mod_cast hk'
    rw [← hr]
    calc (k : ℝ) * 2 ^ (-(p : ℤ)) ≤ (2 ^ p - 1) * 2 ^ (-(p : ℤ)) := by gcongr
      _ = 1 - 2 ^ (-(p : ℤ)) := by rw [sub_mul, one_mul, zpow_neg, zpow_natCast, mul_inv_cancel₀ (by positivity)]

/-- Rounding to nearest does not round `255 * s` up to 255. -/
theorem ieee_255 {p : ℕ} {emin emax : ℤ} (hp : 9 ≤ p) (he : emin ≤ -1) {s : ℝ} (h0 : 0 ≤ s) (h1 : s < 1)
    (hs : rnd (ieee p emin emax) s = fin s) : rnd (ieee p emin emax) (255 * s) ≠ fin 255 := by
  have hle := ieee_below_one (by omega) he h0 h1 hs
  have hmono := roundPos_mono (emin := emin) (by omega : 1 ≤ p) (by positivity : 0 ≤ 255 * s)
    (by linarith : 255 * s ≤ 255 * (1 - 2 ^ (-(p : ℤ))))
  have hq : (2 : ℝ) ^ (-(p : ℤ)) ≤ 1 / 512 := by
    calc (2 : ℝ) ^ (-(p : ℤ)) ≤ 2 ^ (-9 : ℤ) := zpow_le_zpow_right₀ (by norm_num) (by omega)
      _ = 1 / 512 := by norm_num
  have hqpos := two_zpow_pos (-(p : ℤ))
  have hlt : roundPos p emin (255 * (1 - 2 ^ (-(p : ℤ)))) < 255 := by
    have hl : Int.log 2 (255 * (1 - 2 ^ (-(p : ℤ)) : ℝ)) = 7 := by
      apply le_antisymm
      · have : Int.log 2 (255 * (1 - 2 ^ (-(p : ℤ)) : ℝ)) < 8 := (Int.lt_zpow_iff_log_lt (by norm_num) (by linarith)).1 (by
          have : (2 : ℝ) ^ (8 : ℤ) = 256 := by norm_num
          push_cast
          rw [this]; linarith)
        omega
      · exact (Int.zpow_le_iff_le_log (by norm_num) (by linarith)).1 (by
          have : (2 : ℝ) ^ (7 : ℤ) = 128 := by norm_num
          push_cast
          rw [this]; linarith)
    have hlp : lastPlace p emin (255 * (1 - 2 ^ (-(p : ℤ)))) = 8 - (p : ℤ) := by
      unfold lastPlace; rw [hl, max_eq_left (by omega)]; ring
    unfold roundPos
    rw [hlp]
    have hu := two_zpow_pos (8 - (p : ℤ))
    have h256 : (2 : ℝ) ^ (8 - (p : ℤ)) = 256 * 2 ^ (-(p : ℤ)) := by
      rw [sub_eq_add_neg, zpow_add₀ (by norm_num)]; norm_num
    have hN : (255 : ℝ) = (255 * 2 ^ (p - 8) : ℕ) * 2 ^ (8 - (p : ℤ)) := by
      push_cast
      rw [mul_assoc, ← zpow_natCast, ← zpow_add₀ (by norm_num), Nat.cast_sub (by omega)]
      simp
    have hx : 255 * (1 - 2 ^ (-(p : ℤ)) : ℝ) / 2 ^ (8 - (p : ℤ)) = (255 * 2 ^ (p - 8) : ℕ) - 255 / 256 := by
      rw [div_eq_iff hu.ne', sub_mul, ← hN, h256]; ring
    rw [hx]
    have hc := roundEven_close (((255 * 2 ^ (p - 8) : ℕ) : ℝ) - 255 / 256)
    generalize roundEven (((255 * 2 ^ (p - 8) : ℕ) : ℝ) - 255 / 256) = k at hc
    have hk : (k : ℝ) < (255 * 2 ^ (p - 8) : ℕ) := by
      have := (abs_le.1 hc).2
      linarith
    calc (k : ℝ) * 2 ^ (8 - (p : ℤ)) < (255 * 2 ^ (p - 8) : ℕ) * 2 ^ (8 - (p : ℤ)) := by gcongr
      _ = 255 := hN.symm
  rw [ieee_round_nonneg (by positivity)]
  split
  · rw [Ne, fin_inj]; intro h; linarith
  · simp

/-- C89 for `float` and `double`: the maps are defined for every scalar that is not NaN. -/
theorem C89_ieee {p : ℕ} {emin emax : ℤ} (hp : 9 ≤ p) (he : emin ≤ -1) (h9 : 9 ≤ emax) (m : Fl (ieee p emin emax) → Option (Vec (Fl (ieee p emin emax)) 3))
    (hm : m ∈ [plasma, viridis, inferno, blackbody, kindlmann, extendedKindlmann, smoothCoolWarm]) (x : Fl (ieee p emin emax)) (hx : isNaN x = false)
    (hrep : ∀ s : ℝ, x = fin s → rnd (ieee p emin emax) s = fin s) : ∃ v : Fin 3 → ℝ, m x = some (cv v) ∧ ∀ i, 0 ≤ v i ∧ v i ≤ 2 := by
  haveI := ieee_rounding hp (by omega : emin ≤ 0) h9
  refine C89_rounded m hm x hx fun s hs h1 => ?_
  rcases lt_or_ge s 0 with h0 | h0
  · intro h
    have := rnd_nonpos (F := ieee p emin emax) (by linarith : 255 * s ≤ 0)
    rw [h] at this
    norm_num at this
  · exact ieee_255 hp he h0 h1 (hrep s hs)

/-- The scalar next below 1 as a `double`. -/
example : ∃ v : Fin 3 → ℝ, inferno (fin ((2 ^ 53 - 1 : ℕ) * 2 ^ (-53 : ℤ)) : Fl (ieee 53 (-1022) 1023)) = some (cv v) ∧ ∀ i, 0 ≤ v i ∧ v i ≤ 2 := by
  refine C89_ieee (by norm_num) (by norm_num) (by norm_num) _ (by simp) _ (by simp) fun s hs => ?_
  rw [fin_inj] at hs
  rw [← hs]
  refine ieee_rep (by norm_num) (by norm_num) ?_
  calc (((2 ^ 53 - 1 : ℕ) : ℝ)) * 2 ^ (-53 : ℤ) < 2 ^ (1 : ℤ) := by norm_num
    _ ≤ _ := zpow_le_zpow_right₀ (by norm_num) (by norm_num)

/-- C89 does not extend to NaN, which the cost image of a constant scene produces (C86): the conversion to an integer is undefined. -/
theorem C89_nan [F.Rounding] (m : Fl F → Option (Vec (Fl F) 3))
    (hm : m ∈ [plasma, viridis, inferno, blackbody, kindlmann, extendedKindlmann, smoothCoolWarm]) : m Fl.nan = none := by
  rw [← colorMaps_eq] at hm
  obtain ⟨⟨r, g, b⟩, -, rfl⟩ := List.mem_map.1 hm
  unfold tableMap
  rw [rzero, rone, lit_small 255 (by norm_num)]
  simp [Scalar.clamp]

example : kindlmann (Fl.nan : Fl binary32) = none := C89_nan kindlmann (by simp)

/-! ## C90 -/

/-- C90: at `i/255` each map returns the `i`-th entries of its tables. -/
theorem C90_nodes [F.Exact] (m : List ℕ × List ℕ × List ℕ) (hm : m ∈ colorMaps) (i : ℕ) (hi : i ≤ 255) :
    tableMap m.1 m.2.1 m.2.2 (fin ((i : ℝ) / 255) : Fl F) = some (cv ![valueAt m.1 i, valueAt m.2.1 i, valueAt m.2.2 i]) := by
  obtain ⟨hr, hg, hb⟩ := colorMaps_good _ hm
  have h1 : (i : ℝ) / 255 ≤ 1 := by rw [div_le_one (by norm_num)]; exact_mod_cast hi
  rw [tableMap_eq hr hg hb, min_eq_left h1, max_eq_right (by positivity), show 255 * ((i : ℝ) / 255) = i by field_simp, interpolate_last,
    interpolate_last, interpolate_last]

example (m : List ℕ × List ℕ × List ℕ) (hm : m ∈ colorMaps) :
    tableMap m.1 m.2.1 m.2.2 (fin ((100 : ℕ) / 255) : Fl exact64) = some (cv ![valueAt m.1 100, valueAt m.2.1 100, valueAt m.2.2 100]) :=
  C90_nodes m hm 100 (by norm_num)

example : colorMaps ≠ [] := by simp [colorMaps]

theorem valueAt_step {T : List ℕ} (h : GoodTable T) {i : ℕ} (hi : i < 255) : |valueAt T (i + 1) - valueAt T i| ≤ 0.1764 := by
  have h1 : i < T.length := by rw [h.1]; omega
  have h2 : i + 1 < T.length := by rw [h.1]; omega
  have h3 := List.all_eq_true.1 h.2.2 (T[i], T[i + 1]) (by
    rw [List.mem_iff_getElem]
    refine ⟨i, by simp [h.1]; omega, by simp⟩)
  simp only [decide_eq_true_eq] at h3
  unfold valueAt
  rw [List.getD_eq_getElem?_getD, List.getD_eq_getElem?_getD, List.getElem?_eq_getElem h1, List.getElem?_eq_getElem h2, Option.getD_some,
    Option.getD_some, ← sub_div, abs_div, abs_of_pos (by positivity : (0 : ℝ) < 10 ^ 20), div_le_iff₀ (by positivity), abs_le]
  have a : ((T[i] : ℕ) : ℝ) ≤ (T[i + 1] : ℕ) + 17640000000000000000 := by exact_mod_cast h3.1
  have b : ((T[i + 1] : ℕ) : ℝ) ≤ (T[i] : ℕ) + 17640000000000000000 := by exact_mod_cast h3.2
  constructor <;> norm_num <;> linarith

theorem valueAt_lipschitz {T : List ℕ} (h : GoodTable T) {i : ℕ} (d : ℕ) (hi : i + d ≤ 255) : |valueAt T (i + d) - valueAt T i| ≤ 0.1764 * d := by
  induction d with
  | zero => simp
  | succ d ih =>
    have h1 := ih (by omega)
    have h2 := valueAt_step h (i := i + d) (by omega)
    have h3 := abs_add_le (valueAt T (i + d + 1) - valueAt T (i + d)) (valueAt T (i + d) - valueAt T i)
    rw [sub_add_sub_cancel] at h3
    push_cast
    rw [← add_assoc]
    linarith

theorem interpolate_lipschitz {T : List ℕ} (h : GoodTable T) {x y : ℝ} (hx : 0 ≤ x) (hxy : x ≤ y) (hy : y ≤ 255) :
    |interpolate T y - interpolate T x| ≤ 0.1764 * (y - x) := by
  have hy0 := hx.trans hxy
  rcases eq_or_lt_of_le hxy with rfl | hlt
  · simp
  have fx : (⌊x⌋₊ : ℝ) + Int.fract x = x := by
    have := Int.floor_add_fract x
    rwa [← natCast_floor_eq_intCast_floor hx] at this
  have fy : (⌊y⌋₊ : ℝ) + Int.fract y = y := by
    have := Int.floor_add_fract y
    rwa [← natCast_floor_eq_intCast_floor hy0] at this
  have ax := Int.fract_nonneg x
  have bx := Int.fract_lt_one x
  have ay := Int.fract_nonneg y
  have hi : ⌊x⌋₊ < 255 := by rw [Nat.floor_lt hx]; push_cast; linarith
  have sx := abs_le.1 (valueAt_step h hi)
  -- the part from `x` to the next node and the part from the last node to `y`
  rcases Nat.eq_or_lt_of_le (Nat.floor_le_floor hxy) with he | hl
  · unfold interpolate
    rw [← he] at fy ⊢
    rw [show (1 - Int.fract y) * valueAt T ⌊x⌋₊ + Int.fract y * valueAt T (⌊x⌋₊ + 1) -
      ((1 - Int.fract x) * valueAt T ⌊x⌋₊ + Int.fract x * valueAt T (⌊x⌋₊ + 1)) =
        (y - x) * (valueAt T (⌊x⌋₊ + 1) - valueAt T ⌊x⌋₊) by
          rw [show y - x = Int.fract y - Int.fract x by linarith]; ring, abs_mul, abs_of_pos (by linarith), mul_comm]
    exact mul_le_mul_of_nonneg_right (valueAt_step h hi) (by linarith)
  · have h1 : |valueAt T (⌊x⌋₊ + 1) - interpolate T x| ≤ 0.1764 * (⌊x⌋₊ + 1 - x) := by
      unfold interpolate
      rw [show valueAt T (⌊x⌋₊ + 1) - ((1 - Int.fract x) * valueAt T ⌊x⌋₊ + Int.fract x * valueAt T (⌊x⌋₊ + 1)) =
        (⌊x⌋₊ + 1 - x) * (valueAt T (⌊x⌋₊ + 1) - valueAt T ⌊x⌋₊) by
          rw [show (⌊x⌋₊ : ℝ) + 1 - x = 1 - Int.fract x by linarith]; ring, abs_mul, abs_of_pos (by linarith), mul_comm]
      exact mul_le_mul_of_nonneg_right (valueAt_step h hi) (by linarith)
    have hj : ⌊y⌋₊ ≤ 255 := by
      have : ⌊y⌋₊ ≤ ⌊(255 : ℝ)⌋₊ := Nat.floor_le_floor hy
      simpa using this
    have h2 : |valueAt T ⌊y⌋₊ - valueAt T (⌊x⌋₊ + 1)| ≤ 0.1764 * (⌊y⌋₊ - (⌊x⌋₊ + 1)) := by
      have := valueAt_lipschitz h (i := ⌊x⌋₊ + 1) (⌊y⌋₊ - (⌊x⌋₊ + 1)) (by omega)
      rw [Nat.add_sub_cancel' hl, Nat.cast_sub hl] at this
      exact_mod_cast this
    have h3 : |interpolate T y - valueAt T ⌊y⌋₊| ≤ 0.1764 * (y - ⌊y⌋₊) := by
      unfold interpolate
      rcases Nat.eq_or_lt_of_le hj with he | hj
      · have : Int.fract y = 0 := by rw [he] at fy; push_cast at fy; linarith
        rw [this]
        have : (⌊y⌋₊ : ℝ) ≤ y := Nat.floor_le hy0
        simp
        linarith
      · rw [show (1 - Int.fract y) * valueAt T ⌊y⌋₊ + Int.fract y * valueAt T (⌊y⌋₊ + 1) - valueAt T ⌊y⌋₊ =
          Int.fract y * (valueAt T (⌊y⌋₊ + 1) - valueAt T ⌊y⌋₊) by ring, abs_mul, abs_of_nonneg ay, mul_comm,
          show y - (⌊y⌋₊ : ℝ) = Int.fract y by linarith]
        exact mul_le_mul_of_nonneg_right (valueAt_step h hj) ay
    have h4 := abs_le.1 h1
    have h5 := abs_le.1 h2
    have h6 := abs_le.1 h3
    rw [abs_le]
    constructor <;> linarith

/-- C90: the maps are Lipschitz continuous on the whole line: no channel changes by more than 45 times the change of the scalar. In
particular there is no jump at a node or at 1. -/
theorem C90_lipschitz [F.Exact] (m : Fl F → Option (Vec (Fl F) 3))
    (hm : m ∈ [plasma, viridis, inferno, blackbody, kindlmann, extendedKindlmann, smoothCoolWarm]) (x y : ℝ) :
    ∃ v w : Fin 3 → ℝ, m (fin x) = some (cv v) ∧ m (fin y) = some (cv w) ∧ ∀ i, |v i - w i| ≤ 45 * |x - y| := by
  rw [← colorMaps_eq] at hm
  obtain ⟨⟨r, g, b⟩, hmem, rfl⟩ := List.mem_map.1 hm
  obtain ⟨hr, hg, hb⟩ := colorMaps_good _ hmem
  have hc : |Max.max 0 (Min.min x 1) - Max.max 0 (Min.min y 1)| ≤ |x - y| := by
    refine (abs_max_sub_max_le_max _ _ _ _).trans ?_
    rw [sub_self, abs_zero]
    refine max_le (abs_nonneg _) ((abs_min_sub_min_le_max _ _ _ _).trans ?_)
    rw [sub_self, abs_zero]
    exact max_le (le_refl _) (abs_nonneg _)
  refine ⟨_, _, tableMap_eq hr hg hb x, tableMap_eq hr hg hb y, fun i => ?_⟩
  have key : ∀ {T : List ℕ}, GoodTable T → ∀ a b : ℝ, 0 ≤ a → a ≤ 1 → 0 ≤ b → b ≤ 1 →
      |interpolate T (255 * a) - interpolate T (255 * b)| ≤ 45 * |a - b| := by
    intro T hT a b a0 a1 b0 b1
    rcases le_total a b with h | h
    · have := interpolate_lipschitz hT (x := 255 * a) (y := 255 * b) (by positivity) (by linarith) (by linarith)
      rw [abs_sub_comm, abs_sub_comm a, abs_of_nonneg (by linarith : 0 ≤ b - a)]
      norm_num at this ⊢
      linarith
    · have := interpolate_lipschitz hT (x := 255 * b) (y := 255 * a) (by positivity) (by linarith) (by linarith)
      rw [abs_of_nonneg (by linarith : 0 ≤ a - b)]
      norm_num at this ⊢
      linarith
  have c0 : ∀ x : ℝ, 0 ≤ Max.max 0 (Min.min x 1) := fun x => le_max_left _ _
  have c1 : ∀ x : ℝ, Max.max 0 (Min.min x 1) ≤ 1 := fun x => max_le (by norm_num) (min_le_right _ _)
  fin_cases i
  · exact (key hr _ _ (c0 x) (c1 x) (c0 y) (c1 y)).trans (by linarith)
  · exact (key hg _ _ (c0 x) (c1 x) (c0 y) (c1 y)).trans (by linarith)
  · exact (key hb _ _ (c0 x) (c1 x) (c0 y) (c1 y)).trans (by linarith)

/-- Linear between two nodes. -/
example : ∃ v : Fin 3 → ℝ, plasma (fin (1 / 2) : Fl exact64) = some (cv v) ∧ v 0 = (valueAt plasma_r 127 + valueAt plasma_r 128) / 2 := by
  obtain ⟨hr, hg, hb⟩ := colorMaps_good (plasma_r, plasma_g, plasma_b) (by simp [colorMaps])
  refine ⟨_, tableMap_eq hr hg hb _, ?_⟩
  rw [min_eq_left (by norm_num), max_eq_right (by norm_num)]
  show interpolate plasma_r _ = _
  unfold interpolate
  have e : ⌊(255 : ℝ) * (1 / 2)⌋₊ = 127 := by rw [Nat.floor_eq_iff (by norm_num)]; norm_num
  have f : Int.fract ((255 : ℝ) * (1 / 2)) = 1 / 2 := by
    rw [Int.fract_eq_iff]; refine ⟨by norm_num, by norm_num, 127, by norm_num⟩
  rw [e, f]
  ring

/-- `grayscale` of a scalar in the unit interval is that grey, and others are clamped. -/
theorem C89_grayscale [F.Exact] (x : ℝ) : grayscale (fin x : Fl F) = cv (fun _ => Max.max 0 (Min.min x 1)) := by
  have hc : Scalar.clamp (fin x : Fl F) 0 1 = fin (Max.max 0 (Min.min x 1)) := by
    unfold Scalar.clamp
    rw [ofNat_zero, ofNat_one, lt_fin, lt_fin]
    rcases lt_or_ge x 0 with h | h
    · rw [if_pos (by simpa using h), max_eq_left ((min_le_left _ _).trans h.le)]
    · rw [if_neg (by simpa using h)]
      rcases lt_or_ge 1 x with h1 | h1
      · rw [if_pos (by simpa using h1), min_eq_right h1.le, max_eq_right (by norm_num)]
      · rw [if_neg (by simpa using h1), min_eq_left h1, max_eq_right h]
  unfold grayscale
  simp only [hc]
  funext i
  fin_cases i <;> rfl

/-! ## The cost image -/

/-- render_scene.hpp:81-83: the pixel of the cost image for a pixel with time `t`. -/
def costPixel {R : Type} [Scalar R] (cost : List R) (t : R) : Option (Fin 4 → UInt8) := (inferno (Render.costScalar cost t)).bind to8bit

/-- C86: if the times are not all the same, every pixel of the cost image is defined, and opaque. -/
theorem C86_pixels [F.Exact] (cost : List ℝ) (h0 : ∀ t ∈ cost, 0 ≤ t ∧ t ≤ F.big) (a b : ℝ) (ha : a ∈ cost) (hb : b ∈ cost) (hab : a ≠ b)
    (t : ℝ) (ht : t ∈ cost) : ∃ p, costPixel (cost.map (fin : ℝ → Fl F)) (fin t) = some p ∧ p 3 = 255 := by
  obtain ⟨lo, -, hi, -, -, h⟩ := C86_range (F := F) cost h0 a b ha hb hab
  obtain ⟨-, -, h1, -, -⟩ := h t ht
  obtain ⟨v, h2, h3⟩ := C89_range (F := F) inferno (by simp) (fin ((t - lo) / (hi - lo))) (by simp)
  obtain ⟨p, h4, -, -, -, h5⟩ := C88_pixel (F := F) (cv v) (fun i => by rw [cv_apply, le_fin]; simpa using (h3 i).1)
  exact ⟨p, by rw [costPixel, h1, h2, Option.bind_some, h4], h5⟩

example : ∃ p, costPixel ([(3 : ℝ) / 4, 1 / 2, 1 / 2].map (fin : ℝ → Fl exact64)) (fin (1 / 2)) = some p ∧ p 3 = 255 := by
  have hb : (1 : ℝ) ≤ exact64.big := by 
    have h2 : (1 : ℝ) ≤ 2 ^ 1023 := one_le_pow₀ one_le_two
    show (1 : ℝ) ≤ (2 - 1 / 2 ^ 52) * 2 ^ 1023
    exact one_le_mul_of_one_le_of_one_le (by norm_num) h2
  refine C86_pixels _ ?_ (3 / 4) (1 / 2) (by simp) (by simp) (by norm_num) _ (by simp)
  intro t ht
  simp only [List.mem_cons, List.not_mem_nil, or_false] at ht
  rcases ht with rfl | rfl | rfl <;> exact ⟨by norm_num, by linarith⟩

/-- C86 fails whenever all times are the same: the pixels of the cost image are undefined. -/
theorem C86_undefined_false [F.Exact] (n : ℕ) (c : ℝ) (h0 : 0 ≤ c) (h1 : c ≤ F.big) :
    costPixel (List.replicate (n + 1) (fin c : Fl F)) (fin c) = none := by
  rw [costPixel, C86_constant_false n c h0 h1, C89_nan inferno (by simp), Option.bind_none]

end DRT
