import Verif.Lemmas.PcgOutput
import Verif.Scalar.IEEE

/-! # C35, C36, C94: the random number generator -/

namespace DRT
open Scalar Fl

variable {F : Fmt}

/-- C35: after `n` draws the generator is back in its starting state iff `2^64` divides `n`, for every seed and every
stream constant. -/
theorem C35_full_period (g : Pcg) (n : ℕ) : (fun h => (Pcg.next h).2)^[n] g = g ↔ 2 ^ 64 ∣ n :=
  Pcg.iterate_eq_iff g n

/-- C35: every state is visited within `2^64` draws, exactly once. -/
theorem C35_visits_all (g : Pcg) (s : BitVec 64) :
    ∃! n : ℕ, n < 2 ^ 64 ∧ ((fun h => (Pcg.next h).2)^[n] g).state = s := by
  obtain ⟨n, hn, hs⟩ := Pcg.visits g (j := 1) (by norm_num) s
  rw [one_mul] at hs
  refine ⟨n, ⟨hn, hs⟩, ?_⟩
  rintro m ⟨hm, hms⟩
  change (Pcg.advance^[m] g).state = s at hms
  have key : ∀ a b : ℕ, a ≤ b → b < 2 ^ 64 → (Pcg.advance^[a] g).state = (Pcg.advance^[b] g).state → a = b := by
    intro a b hab hb h
    have h1 : Pcg.advance^[a] g = Pcg.advance^[b] g := Pcg.ext_state h (by rw [Pcg.inc_iterate, Pcg.inc_iterate])
    obtain ⟨d, rfl⟩ := Nat.exists_eq_add_of_le hab
    rw [Function.iterate_add_apply] at h1
    have h2 := (Pcg.iterate_eq_iff g d).mp ((Pcg.advance_injective.iterate a) h1).symm
    have : d = 0 := Nat.eq_zero_of_dvd_of_lt h2 (by omega)
    omega
  rcases Nat.le_total m n with h | h
  · exact key m n h hn (hms.trans hs.symm)
  · exact (key n m h hm (hs.trans hms.symm)).symm

/-- C35: drawing never changes the stream constant, and two generators of one stream that are ever in the same state
stay in step. -/
theorem C35_stream (g h : Pcg) (hi : g.inc = h.inc) (n m : ℕ)
    (hs : ((fun h => (Pcg.next h).2)^[n] g).state = ((fun h => (Pcg.next h).2)^[m] h).state) (k : ℕ) :
    ((fun h => (Pcg.next h).2)^[k + n] g) = ((fun h => (Pcg.next h).2)^[k + m] h) ∧
    ((fun h => (Pcg.next h).2)^[k + n] g).inc = g.inc := by
  have e : Pcg.advance^[n] g = Pcg.advance^[m] h := Pcg.ext_state hs (by rw [Pcg.inc_iterate, Pcg.inc_iterate, hi])
  constructor
  · show Pcg.advance^[k + n] g = Pcg.advance^[k + m] h
    rw [Function.iterate_add_apply, Function.iterate_add_apply, e]
  · exact Pcg.inc_iterate g (k + n)

example : (fun h => (Pcg.next h).2)^[2 ^ 65] ⟨1235123#64, 234121#64⟩ = ⟨1235123#64, 234121#64⟩ :=
  (C35_full_period _ _).mpr ⟨2, by norm_num⟩

/-- C94: over one full period every 32-bit word is returned exactly `2^32` times, for every seed and stream. -/
theorem C94_equidistributed (g : Pcg) (w : BitVec 32) :
    Nat.card {n : Fin (2 ^ 64) // (Pcg.next ((fun h => (Pcg.next h).2)^[n.1] g)).1 = w} = 2 ^ 32 := by
  rw [← Pcg.card_output w]
  refine Nat.card_congr (Equiv.ofBijective (fun n => ⟨((fun h => (Pcg.next h).2)^[n.1.1] g).state, n.2⟩) ⟨?_, ?_⟩)
  · intro m n h
    have h1 : ((fun h => (Pcg.next h).2)^[m.1.1] g).state = ((fun h => (Pcg.next h).2)^[n.1.1] g).state :=
      congrArg Subtype.val h
    obtain ⟨k, -, hk⟩ := C35_visits_all g ((fun h => (Pcg.next h).2)^[n.1.1] g).state
    have a := hk m.1.1 ⟨m.1.2, h1⟩
    have b := hk n.1.1 ⟨n.1.2, rfl⟩
    exact Subtype.ext (Fin.ext (a.trans b.symm))
  · rintro ⟨s, hs⟩
    obtain ⟨k, ⟨hk, hks⟩, -⟩ := C35_visits_all g s
    refine ⟨⟨⟨k, hk⟩, ?_⟩, Subtype.ext hks⟩
    show Pcg.output _ = w
    rw [hks]; exact hs

/-- C94: the returned word is the mixed word rotated right by the top five bits of the state. -/
theorem C94_rotation (g : Pcg) {j : ℕ} (hj : j < 32) :
    (Pcg.next g).1.getLsbD j =
      (((g.state >>> 18 ^^^ g.state) >>> 27).setWidth 32).getLsbD ((j + g.state.toNat / 2 ^ 59) % 32) :=
  Pcg.output_bit g.state hj

example (g : Pcg) : (Pcg.next g).1.getLsbD 31 =
    (((g.state >>> 18 ^^^ g.state) >>> 27).setWidth 32).getLsbD ((31 + g.state.toNat / 2 ^ 59) % 32) :=
  C94_rotation g (by norm_num)

/-- C36, exact arithmetic: every value is `k/2^32` with `k < 2^32`, hence in `[0,1)`. -/
theorem C36_range [F.Exact] (g : Pcg) :
    ∃ x : ℝ, (Pcg.real01 (R := Fl F) g).1 = fin x ∧ 0 ≤ x ∧ x < 1 := by
  refine ⟨(g.next.1.toNat : ℝ) / 2 ^ 32, ldexp32_def _, by positivity, ?_⟩
  rw [div_lt_one (by positivity)]
  exact_mod_cast g.next.1.isLt

/-- C36 for `double`: the value is exactly `k/2^32`, hence in `[0,1)`. -/
theorem C36_double (g : Pcg) :
    ∃ x : ℝ, (Pcg.real01 (R := Fl binary64) g).1 = fin x ∧ 0 ≤ x ∧ x < 1 := by
  have h32 : g.next.1.toNat < 2 ^ 32 := g.next.1.isLt
  have h1 : (g.next.1.toNat : ℝ) / 2 ^ 32 < 1 := by
    rw [div_lt_one (by positivity)]; exact_mod_cast h32
  refine ⟨(g.next.1.toNat : ℝ) / 2 ^ 32, ?_, by positivity, h1⟩
  have e : (g.next.1.toNat : ℝ) / 2 ^ 32 = g.next.1.toNat * 2 ^ (-32 : ℤ) := by
    rw [div_eq_mul_inv, zpow_neg]; norm_num
  show rnd binary64 ((g.next.1.toNat : ℝ) / 2 ^ 32) = _
  rw [e] at h1 ⊢
  exact ieee_rep (h32.trans (by norm_num)) (by norm_num) (h1.trans (one_lt_zpow₀ (by norm_num) (by norm_num)))

/-- C36, every monotone rounding: the value lies in `[0,1]`. Missing: strictness, which fails for `float`. -/
theorem C36_rounded_partial [F.Rounding] (g : Pcg) :
    Scalar.le (fin 0) (Pcg.real01 (R := Fl F) g).1 = true ∧ Scalar.le (Pcg.real01 (R := Fl F) g).1 (fin 1) = true := by
  have h1 : (g.next.1.toNat : ℝ) / 2 ^ 32 ≤ 1 := by
    rw [div_le_one (by positivity)]; exact_mod_cast g.next.1.isLt.le
  refine ⟨rnd_nonneg (F := F) (by positivity), ?_⟩
  rw [← rnd_one (F := F)]
  exact Fmt.Rounding.mono h1

/-- C36 fails for `float`: some generator state yields exactly 1, because 2^32-1 needs 32 bits and rounds up. -/
theorem C36_float_false : ∃ g : Pcg, (Pcg.real01 (R := Fl binary32) g).1 = fin 1 := by
  obtain ⟨s, hs⟩ := Pcg.parts_bijective.2 (BitVec.allOnes 32, 0, 0)
  refine ⟨⟨s, 0⟩, ?_⟩
  have h1 : (Pcg.next ⟨s, 0⟩).1 = BitVec.allOnes 32 := congrArg Prod.fst hs
  show rnd binary32 (((Pcg.next ⟨s, 0⟩).1.toNat : ℝ) / 2 ^ 32) = _
  rw [h1]
  have h2 : (((BitVec.allOnes 32).toNat : ℕ) : ℝ) / 2 ^ 32 = 1 - 1 / 2 ^ 32 := by
    rw [BitVec.toNat_allOnes]; norm_num
  rw [h2]
  unfold binary32
  have hlog : Int.log 2 ((1 : ℝ) - 1 / 2 ^ 32) = -1 := by
    apply le_antisymm
    · rw [← Int.lt_add_one_iff, ← Int.lt_zpow_iff_log_lt (by norm_num) (by norm_num)]; norm_num
    · rw [← Int.zpow_le_iff_le_log (by norm_num) (by norm_num)]; norm_num
  have hr : roundPos 24 (-126) ((1 : ℝ) - 1 / 2 ^ 32) = 1 := by
    unfold roundPos
    have hq : lastPlace 24 (-126) ((1 : ℝ) - 1 / 2 ^ 32) = -24 := by
      unfold lastPlace; rw [hlog]; norm_num
    rw [hq]
    have ht : ((1 : ℝ) - 1 / 2 ^ 32) / 2 ^ (-24 : ℤ) = 16777216 - 1 / 256 := by norm_num [zpow_neg]
    rw [ht]
    have hf : ⌊(16777216 : ℝ) - 1 / 256⌋ = 16777215 := by
      rw [Int.floor_eq_iff]; norm_num
    have he : roundEven ((16777216 : ℝ) - 1 / 256) = 16777216 := by
      unfold roundEven; rw [hf]; norm_num
    rw [he]; norm_num [zpow_neg]
  rw [ieee_round_nonneg (by norm_num), hr, if_pos (one_lt_zpow₀ (by norm_num) (by norm_num))]

end DRT
