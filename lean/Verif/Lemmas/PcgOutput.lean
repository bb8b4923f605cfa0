import Verif.Lemmas.Pcg
import Mathlib.Data.Fintype.Prod
import Mathlib.Data.Fintype.BigOperators
import Mathlib.SetTheory.Cardinal.Finite

/-! # The output function of the generator takes every value equally often -/

namespace DRT
namespace Pcg

/-- The amount of rotation: the top five bits. -/
def rotBits (s : BitVec 64) : ℕ := s.toNat / 2 ^ 59

/-- The 32 bits that are rotated. -/
def mixed (s : BitVec 64) : BitVec 32 := (((s >>> 18) ^^^ s) >>> 27).setWidth 32

theorem rotBits_lt (s : BitVec 64) : rotBits s < 32 := by
  unfold rotBits; have := s.isLt; omega

theorem rot_toNat (s : BitVec 64) : ((s >>> 59).setWidth 32 : BitVec 32).toNat = rotBits s := by
  have h := rotBits_lt s
  unfold rotBits at *
  rw [BitVec.toNat_setWidth, BitVec.toNat_ushiftRight, Nat.shiftRight_eq_div_pow, Nat.mod_eq_of_lt (by omega)]

theorem neg_rot_toNat (s : BitVec 64) :
    ((-((s >>> 59).setWidth 32 : BitVec 32)) &&& 31#32).toNat = (32 - rotBits s) % 32 := by
  have h := rotBits_lt s
  rw [BitVec.toNat_and, BitVec.toNat_neg, rot_toNat, show (31#32).toNat = 2 ^ 5 - 1 from rfl,
    Nat.and_two_pow_sub_one_eq_mod]
  omega

theorem output_eq (s : BitVec 64) :
    output s = (mixed s >>> rotBits s) ||| (mixed s <<< ((32 - rotBits s) % 32)) := by
  rw [← neg_rot_toNat]
  conv_rhs => rw [← rot_toNat]
  rfl

/-- Bit `j` of the output is bit `(j + r) mod 32` of the mixed word: the output is a rotation. -/
theorem output_bit (s : BitVec 64) {j : ℕ} (hj : j < 32) :
    (output s).getLsbD j = (mixed s).getLsbD ((j + rotBits s) % 32) := by
  have h := rotBits_lt s
  rw [output_eq, BitVec.getLsbD_or, BitVec.getLsbD_ushiftRight, BitVec.getLsbD_shiftLeft]
  rcases Nat.eq_zero_or_pos (rotBits s) with h0 | h0
  · rw [h0]; simp [hj, Nat.mod_eq_of_lt hj]
  · rw [Nat.mod_eq_of_lt (by omega : 32 - rotBits s < 32)]
    by_cases hc : j + rotBits s < 32
    · rw [Nat.mod_eq_of_lt hc]
      have : j < 32 - rotBits s := by omega
      simp [this, Nat.add_comm]
    · have e : (j + rotBits s) % 32 = j - (32 - rotBits s) := by omega
      have : ¬ j < 32 - rotBits s := by omega
      rw [e, BitVec.getLsbD_of_ge (mixed s) (rotBits s + j) (by omega)]
      simp [this, hj]

theorem mixed_of_output {s t : BitVec 64} (hr : rotBits s = rotBits t) (h : output s = output t) :
    mixed s = mixed t := by
  apply BitVec.eq_of_getLsbD_eq
  intro i hi
  have hs := rotBits_lt s
  have e : ((i + (32 - rotBits s)) % 32 + rotBits s) % 32 = i := by omega
  have h1 := output_bit s (j := (i + (32 - rotBits s)) % 32) (Nat.mod_lt _ (by norm_num))
  have h2 := output_bit t (j := (i + (32 - rotBits s)) % 32) (Nat.mod_lt _ (by norm_num))
  rw [← hr, e] at h2
  rw [e] at h1
  rw [← h1, ← h2, h]

theorem state_of_parts {s t : BitVec 64} (hr : rotBits s = rotBits t) (hm : mixed s = mixed t)
    (hl : s.toNat % 2 ^ 27 = t.toNat % 2 ^ 27) : s = t := by
  have key : ∀ k i : ℕ, i + k = 64 → s.getLsbD i = t.getLsbD i := by
    intro k
    induction k using Nat.strong_induction_on with
    | _ k ih =>
      intro i hi
      rcases Nat.lt_or_ge i 27 with h1 | h1
      · have := congrArg (fun n => n.testBit i) hl
        simp only [Nat.testBit_mod_two_pow, h1, decide_true, Bool.true_and] at this
        exact this
      rcases Nat.lt_or_ge i 59 with h2 | h2
      · have h3 : s.getLsbD (18 + i) = t.getLsbD (18 + i) := by
          rcases Nat.lt_or_ge (18 + i) 64 with h4 | h4
          · exact ih (64 - (18 + i)) (by omega) (18 + i) (by omega)
          · rw [BitVec.getLsbD_of_ge _ _ h4, BitVec.getLsbD_of_ge _ _ h4]
        have h5 := congrArg (fun w => w.getLsbD (i - 27)) hm
        simp only [mixed, BitVec.getLsbD_setWidth, BitVec.getLsbD_ushiftRight, BitVec.getLsbD_xor] at h5
        rw [show 27 + (i - 27) = i by omega, h3] at h5
        have h6 : i - 27 < 32 := by omega
        simp only [h6, decide_true, Bool.true_and] at h5
        simpa using h5
      · have := congrArg (fun n => n.testBit (i - 59)) hr
        simp only [rotBits, Nat.testBit_div_two_pow] at this
        rw [show i - 59 + 59 = i by omega] at this
        exact this
  exact BitVec.eq_of_getLsbD_eq fun i hi => key (64 - i) i (by omega)

/-- A state is determined by its output, its top five bits and its low 27 bits, and all combinations occur. -/
def parts (s : BitVec 64) : BitVec 32 × (Fin (2 ^ 5) × Fin (2 ^ 27)) :=
  (output s, ⟨rotBits s, rotBits_lt s⟩, ⟨s.toNat % 2 ^ 27, Nat.mod_lt _ (by norm_num)⟩)

theorem parts_injective : Function.Injective parts := by
  intro s t h
  simp only [parts, Prod.mk.injEq, Fin.mk.injEq] at h
  exact state_of_parts h.2.1 (mixed_of_output h.2.1 h.1) h.2.2

theorem card_bitVec (w : ℕ) : Nat.card (BitVec w) = 2 ^ w := by
  have e : BitVec w ≃ Fin (2 ^ w) := ⟨BitVec.toFin, BitVec.ofFin, fun _ => rfl, fun _ => rfl⟩
  rw [Nat.card_congr e, Nat.card_eq_fintype_card, Fintype.card_fin]

instance (w : ℕ) : Finite (BitVec w) := Finite.of_injective BitVec.toFin (fun _ _ h => BitVec.toFin_inj.mp h)

theorem parts_bijective : Function.Bijective parts := by
  refine ⟨parts_injective, ?_⟩
  have : Nat.card (BitVec 64) = Nat.card (BitVec 32 × (Fin (2 ^ 5) × Fin (2 ^ 27))) := by
    rw [Nat.card_prod, Nat.card_prod, card_bitVec, card_bitVec, Nat.card_eq_fintype_card, Nat.card_eq_fintype_card,
      Fintype.card_fin, Fintype.card_fin]
    norm_num
  exact ((Nat.bijective_iff_injective_and_card _).mpr ⟨parts_injective, this⟩).2

/-- Every 32-bit word is the output of exactly `2^32` states. -/
theorem card_output (w : BitVec 32) : Nat.card {s : BitVec 64 // output s = w} = 2 ^ 32 := by
  have e : {s : BitVec 64 // output s = w} ≃ (Fin (2 ^ 5) × Fin (2 ^ 27)) := by
    refine Equiv.ofBijective (fun s => (parts s.1).2) ⟨?_, ?_⟩
    · intro s t h
      apply Subtype.ext
      apply parts_injective
      exact Prod.ext (s.2.trans t.2.symm) h
    · intro y
      obtain ⟨s, hs⟩ := parts_bijective.2 (w, y)
      exact ⟨⟨s, congrArg Prod.fst hs⟩, congrArg Prod.snd hs⟩
  rw [Nat.card_congr e, Nat.card_prod, Nat.card_eq_fintype_card, Nat.card_eq_fintype_card, Fintype.card_fin,
    Fintype.card_fin]
  norm_num

end Pcg
end DRT
