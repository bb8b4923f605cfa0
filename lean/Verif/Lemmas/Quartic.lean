import Verif.Lemmas.Roots
import Mathlib.Topology.Order.IntermediateValue
import Mathlib.Topology.Algebra.Order.Floor

/-! # `quartic_roots` on finite coefficients -/

namespace DRT
open Scalar Fl

/-- Coefficients of the depressed quartic `y⁴ + py² + qy + r` with `x = y - b/(4a)`. -/
noncomputable def quaP (a b c : ℝ) : ℝ := c / a - 3 * (b / a * (b / a)) / 8
/-- See `quaP`. -/
noncomputable def quaQ (a b c d : ℝ) : ℝ := d / a - b / a * (c / a) / 2 + b / a * (b / a) * (b / a) / 8
/-- See `quaP`. -/
noncomputable def quaR (a b c d e : ℝ) : ℝ :=
  e / a - b / a * (d / a) / 4 + b / a * (b / a) * (c / a) / 16 - 3 * (b / a * (b / a)) * (b / a * (b / a)) / 256

theorem qua_depress {a : ℝ} (ha : a ≠ 0) (b c d e y : ℝ) :
    a * (y - b / a / 4) ^ 4 + b * (y - b / a / 4) ^ 3 + c * (y - b / a / 4) ^ 2 + d * (y - b / a / 4) + e =
      a * (y ^ 4 + quaP a b c * y ^ 2 + quaQ a b c d * y + quaR a b c d e) := by
  unfold quaP quaQ quaR; field_simp; ring

theorem qua_depress' {a : ℝ} (ha : a ≠ 0) (b c d e z : ℝ) :
    a * z ^ 4 + b * z ^ 3 + c * z ^ 2 + d * z + e =
      a * ((z + b / a / 4) ^ 4 + quaP a b c * (z + b / a / 4) ^ 2 + quaQ a b c d * (z + b / a / 4) + quaR a b c d e) := by
  rw [← qua_depress ha]; ring

/-- The threshold windows that `quartic_roots` is sensitive to do not apply. With `tiny = 0` this always
holds for `a ≠ 0`. -/
structure QuarticClear (tiny a b c d e : ℝ) : Prop where
  lead : tiny < |a|
  const : e = 0 ∨ tiny < |e|
  cubic : e = 0 → CubicClear tiny a b c d
  r : quaR a b c d e = 0 ∨ tiny < |quaR a b c d e|
  rcubic : quaR a b c d e = 0 → CubicClear tiny 1 0 (quaP a b c) (quaQ a b c d)
  q : quaQ a b c d = 0 ∨ tiny < |quaQ a b c d|
  biquadratic : quaQ a b c d = 0 → quaP a b c = 0 ∨ tiny < |quaP a b c|
  resolvent : quaQ a b c d ≠ 0 → CubicClear tiny 1 (2 * quaP a b c) (quaP a b c * quaP a b c - 4 * quaR a b c d e)
    (-quaQ a b c d * quaQ a b c d)
  split : quaQ a b c d ≠ 0 → ∀ z : ℝ, 0 < z →
    1 * z ^ 3 + 2 * quaP a b c * z ^ 2 + (quaP a b c * quaP a b c - 4 * quaR a b c d e) * z
      + -quaQ a b c d * quaQ a b c d = 0 → tiny < √z

theorem QuarticClear.of_zero {a : ℝ} (ha : a ≠ 0) (b c d e : ℝ) : QuarticClear 0 a b c d e := by
  have key : ∀ x : ℝ, x = 0 ∨ 0 < |x| := fun x => by rw [abs_pos]; exact em _
  exact ⟨abs_pos.mpr ha, key _, fun _ => .of_zero ha _ _ _, key _, fun _ => .of_zero one_ne_zero _ _ _, key _,
    fun _ => key _, fun _ => .of_zero one_ne_zero _ _ _, fun _ z hz _ => Real.sqrt_pos.mpr hz⟩

/-- A cubic with positive leading and negative constant coefficient has a positive root. -/
theorem exists_pos_root (b c d : ℝ) (hd : d < 0) : ∃ z : ℝ, 0 < z ∧ 1 * z ^ 3 + b * z ^ 2 + c * z + d = 0 := by
  obtain ⟨M, hM⟩ : ∃ M, M = 1 + |b| + |c| + |d| := ⟨_, rfl⟩
  have hM1 : 1 ≤ M := by have := abs_nonneg b; have := abs_nonneg c; have := abs_nonneg d; linarith
  have hpos : 0 ≤ 1 * M ^ 3 + b * M ^ 2 + c * M + d := by
    have h1 := neg_abs_le b; have h2 := neg_abs_le c; have h3 := neg_abs_le d
    have hb : -|b| * M ^ 2 ≤ b * M ^ 2 := by gcongr
    have hc : -|c| * M ≤ c * M := by gcongr
    have hMM : M ≤ M ^ 2 := by nlinarith
    have hc' : -|c| * M ^ 2 ≤ -|c| * M := by nlinarith [abs_nonneg c]
    have hd' : -|d| * M ^ 2 ≤ -|d| := by nlinarith [abs_nonneg d]
    have : M ^ 3 = M ^ 2 * (1 + |b| + |c| + |d|) := by rw [← hM]; ring
    nlinarith [sq_nonneg M]
  have hcont : ContinuousOn (fun z : ℝ => 1 * z ^ 3 + b * z ^ 2 + c * z + d) (Set.Icc 0 M) := by fun_prop
  have hmem : (0 : ℝ) ∈ Set.Icc ((fun z : ℝ => 1 * z ^ 3 + b * z ^ 2 + c * z + d) 0)
      ((fun z : ℝ => 1 * z ^ 3 + b * z ^ 2 + c * z + d) M) := by
    constructor
    · simp; linarith
    · exact hpos
  obtain ⟨z, hz, hz0⟩ := intermediate_value_Icc (by linarith) hcont hmem
  refine ⟨z, lt_of_le_of_ne hz.1 ?_, hz0⟩
  rintro rfl
  simp at hz0; linarith

/-- Ferrari's factorisation. -/
theorem ferrari {p q r z s : ℝ} (hz : 0 < z) (hs : s ^ 2 = z) (hs0 : s ≠ 0)
    (h : 1 * z ^ 3 + 2 * p * z ^ 2 + (p * p - 4 * r) * z + -q * q = 0) (y : ℝ) :
    y ^ 4 + p * y ^ 2 + q * y + r =
      (1 * y ^ 2 + s * y + ((p + s * s + q / s) / 2 - q / s)) * (1 * y ^ 2 + -s * y + (p + s * s + q / s) / 2) := by
  have hr : ((p + s * s + q / s) / 2 - q / s) * ((p + s * s + q / s) / 2) = r := by
    have : ((p + s * s + q / s) / 2 - q / s) * ((p + s * s + q / s) / 2) = ((p + s ^ 2) ^ 2 * s ^ 2 - q ^ 2) / (4 * s ^ 2) := by
      field_simp; ring
    rw [this, hs, div_eq_iff (by positivity)]
    linear_combination h
  have hq : s * (q / s) = q := by field_simp
  linear_combination (-1 : ℝ) * hr - y * hq

variable {F : Fmt} [F.Exact]

/-- The Halley polish does not move an exact root. -/
theorem quarticPolish_root {a b c d e z : ℝ} (h : a * z ^ 4 + b * z ^ 3 + c * z ^ 2 + d * z + e = 0) :
    quarticPolish (fin a : Fl F) (fin b) (fin c) (fin d) (fin e) (fin z) = fin z := by
  have ht : (0 : ℝ) ≤ F.tiny := Fmt.Exact.tiny_nonneg
  unfold quarticPolish
  simp only [fl, decide_eq_true_eq, Nat.cast_ofNat]
  have hf : (((a * z + b) * z + c) * z + d) * z + e = 0 := by linear_combination h
  rw [hf]
  split
  · next hlt =>
    have hne : 2 * (((4 * a * z + 3 * b) * z + 2 * c) * z + d) * (((4 * a * z + 3 * b) * z + 2 * c) * z + d) -
        0 * ((12 * a * z + 6 * b) * z + 2 * c) ≠ 0 := by
      intro h0; rw [h0, abs_zero] at hlt; linarith
    rw [div_fin _ hne, sub_fin]; simp
  · rfl

theorem le_getLast_of_sorted {l : List ℝ} (h : l.Pairwise (· ≤ ·)) (hne : l ≠ []) {x : ℝ} (hx : x ∈ l) :
    x ≤ l.getLast hne := by
  induction l with
  | nil => exact absurd rfl hne
  | cons y ys ih =>
    rw [List.pairwise_cons] at h
    cases ys with
    | nil => simp at hx; simp [hx]
    | cons w ws =>
      rw [List.getLast_cons (by simp)]
      rcases List.mem_cons.mp hx with rfl | hx
      · exact h.1 _ (List.getLast_mem _)
      · exact ih h.2 (by simp) hx

/-- Quadratic roots with the coefficients `1, b, c` as a list. -/
theorem quadraticRoots_monic (b c : ℝ) (hb : b = 0 ∨ F.tiny < |b|) :
    ∃ l : List ℝ, quadraticRoots (1 : Fl F) (fin b) (fin c) = l.map fin ∧
      ∀ z, z ∈ l ↔ 1 * z ^ 2 + b * z + c = 0 := by
  have h1 : F.tiny < |(1 : ℝ)| := by rw [abs_one]; exact Fmt.Exact.tiny_lt
  rw [ofNat_one]
  rcases quadraticRoots_spec (F := F) 1 b c (Or.inr h1) (Or.inr hb) (fun h => one_ne_zero h.1) with
    ⟨hl, hno⟩ | ⟨x, y, -, hl, -, hiff⟩
  · exact ⟨[], hl, fun z => by simpa using hno z⟩
  · exact ⟨[x, y], hl, fun z => by rw [hiff]; simp⟩

theorem flatMap_eq_map {l : List ℝ} {f : Fl F → List (Fl F)} {g : ℝ → List ℝ}
    (h : ∀ x, f (fin x) = (g x).map fin) : (l.map fin).flatMap f = (l.flatMap g).map fin := by
  induction l with
  | nil => rfl
  | cons x xs ih => simp only [List.map_cons, List.flatMap_cons, ih, h, List.map_append]

/-- What `quartic_roots` returns on finite coefficients outside the threshold windows. -/
theorem quarticRoots_spec (a b c d e : ℝ) (h : QuarticClear F.tiny a b c d e) :
    ∃ l : List ℝ, quarticRoots (fin a : Fl F) (fin b) (fin c) (fin d) (fin e) = l.map fin ∧
      (∃ l' : List ℝ, l'.Pairwise (· ≤ ·) ∧ (l = l' ∨ (e = 0 ∧ l = l' ++ [0]))) ∧
      (∀ z ∈ l, a * z ^ 4 + b * z ^ 3 + c * z ^ 2 + d * z + e = 0) ∧
      (∀ z0, a * z0 ^ 4 + b * z0 ^ 3 + c * z0 ^ 2 + d * z0 + e = 0 → z0 ∈ l ∨
        ((e = 0 ∨ quaR a b c d e = 0) ∧ ∃ x ∈ l, ∃ w ∈ l, w ≠ z0 ∧
          ∀ z, a * z ^ 4 + b * z ^ 3 + c * z ^ 2 + d * z + e = a * (z - x) * (z - w) * (z - z0) ^ 2)) := by
  have ht : (0 : ℝ) ≤ F.tiny := Fmt.Exact.tiny_nonneg
  have ha0 : a ≠ 0 := by
    intro h0; have := h.lead; rw [h0, abs_zero] at this; linarith
  have ha' : ¬ |a| ≤ F.tiny := not_le.mpr h.lead
  unfold quarticRoots
  rw [tiny_def, abs_fin, abs_fin, le_fin, le_fin, if_neg (by simpa using ha')]
  by_cases he0 : e = 0
  · subst he0
    rw [abs_zero, if_pos (by simpa using ht)]
    obtain ⟨l, hl, -, hsort, hroot, hcomp, -⟩ := cubicRoots_spec (F := F) a b c d (h.cubic rfl)
    have fac : ∀ z : ℝ, a * z ^ 4 + b * z ^ 3 + c * z ^ 2 + d * z + 0 = z * (a * z ^ 3 + b * z ^ 2 + c * z + d) := by
      intro z; ring
    refine ⟨l ++ [0], by rw [hl, ofNat_zero]; simp, ⟨l, hsort, Or.inr ⟨rfl, rfl⟩⟩, ?_, ?_⟩
    · intro z hz
      rw [fac]
      rcases List.mem_append.mp hz with hz | hz
      · rw [hroot z hz, mul_zero]
      · simp at hz; rw [hz, zero_mul]
    · intro z0 hz0
      rw [fac, mul_eq_zero] at hz0
      rcases hz0 with hz0 | hz0
      · left; simp [hz0]
      · rcases hcomp z0 hz0 with h1 | ⟨-, w, hw, hne, hf⟩
        · left; simp [h1]
        · right
          refine ⟨Or.inl rfl, 0, by simp, w, by simp [hw], hne, fun z => ?_⟩
          rw [fac, hf]; ring
  · have he' : ¬ |e| ≤ F.tiny := by
      rcases h.const with h | h
      · exact absurd h he0
      · exact not_le.mpr h
    have n2 : (2 : ℝ) ≠ 0 := by norm_num
    have n4 : (4 : ℝ) ≠ 0 := by norm_num
    have n8 : (8 : ℝ) ≠ 0 := by norm_num
    have n16 : (16 : ℝ) ≠ 0 := by norm_num
    have n256 : (256 : ℝ) ≠ 0 := by norm_num
    rw [if_neg (by simpa using he')]
    simp only [div_fin _ ha0, mul_fin, ofNat_def, Nat.cast_ofNat, div_fin _ n8, div_fin _ n2, div_fin _ n4,
      div_fin _ n16, div_fin _ n256, sub_fin, add_fin]
    rw [show c / a - 3 * (b / a * (b / a)) / 8 = quaP a b c from rfl,
      show d / a - b / a * (c / a) / 2 + b / a * (b / a) * (b / a) / 8 = quaQ a b c d from rfl,
      show e / a - b / a * (d / a) / 4 + b / a * (b / a) * (c / a) / 16
        - 3 * (b / a * (b / a)) * (b / a * (b / a)) / 256 = quaR a b c d e from rfl]
    have dep := qua_depress ha0 b c d e
    have dep' := qua_depress' ha0 b c d e
    obtain ⟨-, -, -, hr, hrc, hq, hbq, hres, hsplit⟩ := h
    generalize quaP a b c = p at *
    generalize quaQ a b c d = q at *
    generalize quaR a b c d e = r at *
    rw [abs_fin, abs_fin, le_fin, le_fin]
    by_cases hr0 : r = 0
    · rw [if_pos (by simpa [hr0] using ht)]
      obtain ⟨l, hl, -, -, hroot, hcomp, -⟩ := cubicRoots_spec (F := F) 1 0 p q (hrc hr0)
      rw [← Nat.cast_one, ← Nat.cast_zero (R := ℝ), ← ofNat_def, ← ofNat_def] at hl
      have hmap : (cubicRoots (fin ((1 : ℕ) : ℝ)) (fin ((0 : ℕ) : ℝ)) (fin p : Fl F) (fin q) ++ [fin ((0 : ℕ) : ℝ)]).map
          (fun y => y - fin (b / a / 4)) = ((l ++ [0]).map (fun y => y - b / a / 4)).map fin := by
        rw [← ofNat_def, ← ofNat_def, hl, ofNat_zero]
        simp [Function.comp_def]
      refine ⟨rsort ((l ++ [0]).map (fun y => y - b / a / 4)), ?_, ⟨_, rsort_sorted _, Or.inl rfl⟩, ?_, ?_⟩
      · rw [← sortAsc_map, ← hmap]
      · intro z hz
        rw [mem_rsort] at hz
        obtain ⟨y, hy, rfl⟩ := List.mem_map.mp hz
        rw [dep, hr0]
        rcases List.mem_append.mp hy with hy | hy
        · linear_combination a * y * hroot y hy
        · simp at hy; rw [hy]; ring
      · intro z0 hz0
        rw [dep', mul_eq_zero, hr0] at hz0
        have hz1 := hz0.resolve_left ha0
        have hz2 : (z0 + b / a / 4) * (1 * (z0 + b / a / 4) ^ 3 + 0 * (z0 + b / a / 4) ^ 2 + p * (z0 + b / a / 4) + q) = 0 := by
          linear_combination hz1
        have back : ∀ y, y ∈ l ++ [0] → y - b / a / 4 ∈ rsort ((l ++ [0]).map (fun y => y - b / a / 4)) := by
          intro y hy; rw [mem_rsort]; exact List.mem_map.mpr ⟨y, hy, rfl⟩
        rcases mul_eq_zero.mp hz2 with h1 | h1
        · left
          have := back 0 (by simp)
          rwa [show (0 : ℝ) - b / a / 4 = z0 by linarith] at this
        · rcases hcomp _ h1 with h2 | ⟨-, w, hw, hne, hf⟩
          · left
            have := back _ (List.mem_append_left _ h2)
            rwa [add_sub_cancel_right] at this
          · right
            refine ⟨Or.inr hr0, _, back 0 (by simp), _, back w (by simp [hw]), ?_, fun z => ?_⟩
            · intro h; apply hne; linarith
            · rw [dep', hr0]
              have := hf (z + b / a / 4)
              linear_combination a * (z + b / a / 4) * this
    · have hr' : ¬ |r| ≤ F.tiny := by
        rcases hr with h | h
        · exact absurd h hr0
        · exact not_le.mpr h
      rw [if_neg (by simpa using hr')]
      by_cases hq0 : q = 0
      · rw [if_pos (by simpa [hq0] using ht)]
        obtain ⟨l, hl, hiff⟩ := quadraticRoots_monic (F := F) p r (hbq hq0)
        rw [ofNat_def] at hl
        obtain ⟨g, hg⟩ : ∃ g : ℝ → List ℝ, g = fun r => if 0 ≤ r then [√r - b / a / 4, -√r - b / a / 4] else [] := ⟨_, rfl⟩
        have hfm : (quadraticRoots (fin ((1 : ℕ) : ℝ)) (fin p : Fl F) (fin r)).flatMap (fun r =>
            if ge r (fin ((0 : ℕ) : ℝ)) then [Scalar.sqrt r - fin (b / a / 4), -Scalar.sqrt r - fin (b / a / 4)] else [])
            = (l.flatMap g).map fin := by
          rw [hl]
          apply flatMap_eq_map
          intro x
          simp only [hg, ge, le_fin, decide_eq_true_eq, Nat.cast_zero]
          by_cases hx : 0 ≤ x
          · simp [hx, sqrt_fin hx]
          · simp [hx]
        refine ⟨rsort (l.flatMap g), ?_, ⟨_, rsort_sorted _, Or.inl rfl⟩, ?_, ?_⟩
        · rw [← sortAsc_map, ← hfm]
        · intro z hz
          rw [mem_rsort] at hz
          obtain ⟨x, hx, hzx⟩ := List.mem_flatMap.mp hz
          rw [hg] at hzx
          have hxr := (hiff x).mp hx
          by_cases hx0 : 0 ≤ x
          · have hsx := Real.sq_sqrt hx0
            simp only [hx0, if_true] at hzx
            have h4 : √x ^ 4 = x ^ 2 := by rw [show √x ^ 4 = (√x ^ 2) ^ 2 by ring, hsx]
            rw [dep', hq0]
            rcases List.mem_cons.mp hzx with rfl | hzx
            · rw [sub_add_cancel]; linear_combination a * hxr + a * h4 + a * p * hsx
            · simp at hzx; rw [hzx, sub_add_cancel]; linear_combination a * hxr + a * h4 + a * p * hsx
          · simp [hx0] at hzx
        · intro z0 hz0
          left
          rw [dep', mul_eq_zero, hq0] at hz0
          have hz1 := hz0.resolve_left ha0
          rw [mem_rsort, List.mem_flatMap]
          refine ⟨(z0 + b / a / 4) ^ 2, (hiff _).mpr (by linear_combination hz1), ?_⟩
          rw [hg]
          simp only [sq_nonneg, if_true, Real.sqrt_sq_eq_abs]
          rcases le_total 0 (z0 + b / a / 4) with hs | hs
          · rw [abs_of_nonneg hs]; simp
          · rw [abs_of_nonpos hs]; simp
      · have hq' : ¬ |q| ≤ F.tiny := by
          rcases hq with h | h
          · exact absurd h hq0
          · exact not_le.mpr h
        rw [if_neg (by simpa using hq')]
        obtain ⟨l, hl, hne, hsorted, hroot, hcomp, -⟩ := cubicRoots_spec (F := F) _ _ _ _ (hres hq0)
        have hqq : -q * q < 0 := by have : 0 < q * q := mul_self_pos.mpr hq0; linarith
        have hlast : 0 < l.getLast hne := by
          obtain ⟨z, hz, hz0⟩ := exists_pos_root (2 * p) (p * p - 4 * r) (-q * q) hqq
          rcases hcomp z hz0 with hm | ⟨-, w, hw, -, hf⟩
          · exact lt_of_lt_of_le hz (le_getLast_of_sorted hsorted hne hm)
          · refine lt_of_lt_of_le ?_ (le_getLast_of_sorted hsorted hne hw)
            have h0 := hf 0
            have : w * z ^ 2 = q * q := by linear_combination h0
            have hz2 : 0 < z ^ 2 := by positivity
            by_contra hw0
            nlinarith [not_lt.mp hw0]
        have hzroot := hroot _ (List.getLast_mem hne)
        have hlastD : (l.map (fin : ℝ → Fl F)).getLastD (fin ((0 : ℕ) : ℝ)) = fin (l.getLast hne) := by
          rw [List.getLastD_eq_getLast?, List.getLast?_map, List.getLast?_eq_some_getLast hne]; rfl
        have hl' : cubicRoots (fin ((1 : ℕ) : ℝ)) (fin (2 * p)) (fin (p * p - 4 * r)) (-(fin q : Fl F) * fin q) = l.map fin := by
          rw [Nat.cast_one, Fl.neg_fin, mul_fin, hl]
        rw [hl', hlastD]
        generalize l.getLast hne = z at *
        have hts := hsplit hq0 z hlast hzroot
        have hs2 := Real.sq_sqrt hlast.le
        have hsp := Real.sqrt_pos.mpr hlast
        have hfer := ferrari hlast hs2 hsp.ne' hzroot
        rw [le_fin, if_neg (by simpa using hlast)]
        simp only [sqrt_fin hlast.le, mul_fin, div_fin _ hsp.ne', add_fin, sub_fin, div_fin _ n2, Fl.neg_fin]
        generalize √z = s at *
        obtain ⟨l1, hl1, hi1⟩ := quadraticRoots_monic (F := F) s ((p + s * s + q / s) / 2 - q / s)
          (Or.inr (by rw [abs_of_pos hsp]; exact hts))
        obtain ⟨l2, hl2, hi2⟩ := quadraticRoots_monic (F := F) (-s) ((p + s * s + q / s) / 2)
          (Or.inr (by rw [abs_neg, abs_of_pos hsp]; exact hts))
        rw [ofNat_def] at hl1 hl2
        rw [hl1, hl2]
        have hmem : ∀ y, y ∈ l1 ++ l2 ↔ y ^ 4 + p * y ^ 2 + q * y + r = 0 := by
          intro y
          rw [hfer, mul_eq_zero, List.mem_append, hi1, hi2]
        have hiff : ∀ z, z ∈ (l1 ++ l2).map (fun y => y - b / a / 4) ↔
            a * z ^ 4 + b * z ^ 3 + c * z ^ 2 + d * z + e = 0 := by
          intro z
          rw [dep', mul_eq_zero, List.mem_map]
          simp only [ha0, false_or]
          rw [← hmem]
          constructor
          · rintro ⟨y, hy, rfl⟩; rwa [sub_add_cancel]
          · intro h; exact ⟨_, h, by ring⟩
        have hmap : (((l1.map fin ++ l2.map fin).map (fun r => r - fin (b / a / 4))).map
            (quarticPolish (fin a) (fin b) (fin c) (fin d) (fin e)) : List (Fl F)) =
            ((l1 ++ l2).map (fun y => y - b / a / 4)).map fin := by
          rw [← List.map_append, List.map_map, List.map_map, List.map_map]
          apply List.map_congr_left
          intro y hy
          simp only [Function.comp, sub_fin]
          exact quarticPolish_root ((hiff _).mp (List.mem_map.mpr ⟨y, hy, rfl⟩))
        refine ⟨rsort ((l1 ++ l2).map (fun y => y - b / a / 4)), ?_, ⟨_, rsort_sorted _, Or.inl rfl⟩, ?_, ?_⟩
        · rw [← sortAsc_map, ← hmap]
        · intro z hz; rw [mem_rsort] at hz; exact (hiff z).mp hz
        · intro z hz; left; rw [mem_rsort]; exact (hiff z).mpr hz

end DRT
