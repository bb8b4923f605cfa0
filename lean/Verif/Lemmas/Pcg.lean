import Verif.Model.Pcg
import Mathlib.NumberTheory.Multiplicity
import Mathlib.Dynamics.PeriodicPts.Lemmas
import Mathlib.Data.BitVec
import Mathlib.Tactic.Ring
import Mathlib.Tactic.LinearCombination
import Mathlib.Data.Int.ModEq
import Mathlib.RingTheory.Coprime.Lemmas
import Mathlib.RingTheory.Int.Basic

/-! # The linear congruential generator has full period (Hull-Dobell for powers of two) -/

namespace DRT

/-- `1 + a + … + a^(n-1)`. -/
def geo (a : ℤ) : ℕ → ℤ
  | 0 => 0
  | n + 1 => a * geo a n + 1

theorem geo_mul (a : ℤ) (n : ℕ) : (a - 1) * geo a n = a ^ n - 1 := by
  induction n with
  | zero => simp [geo]
  | succ n ih => rw [geo, pow_succ]; linear_combination a * ih

theorem lcg_iterate (a c x : ℤ) (n : ℕ) : (fun y => a * y + c)^[n] x = x + geo a n * ((a - 1) * x + c) := by
  induction n with
  | zero => simp [geo]
  | succ n ih => rw [Function.iterate_succ_apply', ih, geo]; ring

/-- For `a ≡ 1 (mod 4)`, `2^k` divides `1 + a + … + a^(n-1)` exactly when it divides `n`. -/
theorem geo_dvd {a : ℤ} (ha : 4 ∣ a - 1) (ha1 : a ≠ 1) (n k : ℕ) : (2 : ℤ) ^ k ∣ geo a n ↔ 2 ^ k ∣ n := by
  have hodd : ¬ 2 ∣ a := by omega
  have h := Int.two_pow_sub_pow' (x := a) (y := 1) n (by simpa using ha) hodd
  rw [one_pow, ← geo_mul, emultiplicity_mul Int.prime_two] at h
  have hfin : FiniteMultiplicity (2 : ℤ) (a - 1) :=
    Int.finiteMultiplicity_iff.mpr ⟨by norm_num, sub_ne_zero.mpr ha1⟩
  have h2 : emultiplicity 2 (geo a n) = emultiplicity 2 (n : ℤ) :=
    by
    have ht := finiteMultiplicity_iff_emultiplicity_ne_top.mp hfin
    exact WithTop.add_left_cancel ht h
  rw [pow_dvd_iff_le_emultiplicity, h2, ← pow_dvd_iff_le_emultiplicity]
  norm_cast

namespace Pcg

/-- The multiplier. -/
def mulA : ℤ := 6364136223846793005

/-- The increment `inc|1` as an integer. -/
def incC (g : Pcg) : ℤ := ((g.inc ||| 1#64).toNat : ℤ)

theorem state_advance (g : Pcg) : g.advance.state = g.state * 6364136223846793005#64 + (g.inc ||| 1#64) := by
  simp only [advance]
theorem inc_advance (g : Pcg) : g.advance.inc = g.inc := by
  cases g; rfl

theorem inc_iterate (g : Pcg) (n : ℕ) : (advance^[n] g).inc = g.inc := by
  induction n with
  | zero => rfl
  | succ n ih => rw [Function.iterate_succ_apply', inc_advance, ih]

theorem mulA_eq : BitVec.ofInt 64 mulA = 6364136223846793005#64 := by
  rw [mulA, BitVec.ofInt_ofNat]


theorem state_iterate (g : Pcg) (n : ℕ) :
    (advance^[n] g).state = BitVec.ofInt 64 ((fun y => mulA * y + g.incC)^[n] g.state.toNat) := by
  induction n with
  | zero => simp
  | succ n ih =>
    rw [Function.iterate_succ_apply', Function.iterate_succ_apply']
    rw [state_advance, inc_iterate, ih, BitVec.ofInt_add, BitVec.ofInt_mul, BitVec.mul_comm, mulA_eq]
    unfold incC
    rw [BitVec.ofInt_natCast, BitVec.ofNat_toNat, BitVec.setWidth_eq]

theorem incC_odd (g : Pcg) : ¬ 2 ∣ g.incC := by
  unfold incC
  rw [BitVec.toNat_or]
  have : ((g.inc.toNat ||| (1#64).toNat).testBit 0) = true := by simp
  rw [Nat.testBit_zero, decide_eq_true_eq] at this
  omega

/-- The state recurs after `n` steps iff `2^64` divides `n`. -/
theorem state_recurs_iff (g : Pcg) (n : ℕ) : (advance^[n] g).state = g.state ↔ 2 ^ 64 ∣ n := by
  have e : g.state = BitVec.ofInt 64 (g.state.toNat : ℤ) := by simp
  rw [state_iterate, lcg_iterate]
  conv_lhs => rhs; rw [e]
  rw [← BitVec.toNat_inj, BitVec.toNat_ofInt, BitVec.toNat_ofInt]
  have h1 : ∀ x y : ℤ, ((x % (2 ^ 64 : ℕ)).toNat = (y % (2 ^ 64 : ℕ)).toNat ↔ (2 : ℤ) ^ 64 ∣ x - y) := by
    intro x y
    omega
  rw [h1, add_sub_cancel_left, ← geo_dvd (a := mulA) (by decide) (by decide) n 64]
  have hodd := incC_odd g
  have hcop : IsCoprime ((2 : ℤ) ^ 64) ((mulA - 1) * g.state.toNat + g.incC) := by
    apply IsCoprime.pow_left
    rw [Int.isCoprime_iff_gcd_eq_one]
    have : ¬ (2 : ℤ) ∣ (mulA - 1) * g.state.toNat + g.incC := by
      intro h
      apply hodd
      have h2 : (2 : ℤ) ∣ (mulA - 1) * g.state.toNat := Dvd.dvd.mul_right (by decide) _
      exact (Int.dvd_add_right h2).mp h
    exact (Int.isCoprime_iff_gcd_eq_one.mp ((Int.prime_two.coprime_iff_not_dvd).mpr this))
  exact ⟨fun h => hcop.dvd_of_dvd_mul_right h, fun h => Dvd.dvd.mul_right h _⟩

/-- The generators of one stream. -/
theorem ext_state {g h : Pcg} (h1 : g.state = h.state) (h2 : g.inc = h.inc) : g = h := by
  cases g; cases h; simp_all

theorem iterate_eq_iff (g : Pcg) (n : ℕ) : advance^[n] g = g ↔ 2 ^ 64 ∣ n := by
  rw [← state_recurs_iff g n]
  exact ⟨fun h => congrArg _ h, fun h => ext_state h (inc_iterate g n)⟩

theorem advance_injective : Function.Injective advance := by
  intro g h hgh
  have h1 : g.inc = h.inc := by rw [← inc_advance g, ← inc_advance h, hgh]
  refine ext_state ?_ h1
  have h3 := (iterate_eq_iff g (2 ^ 64)).mpr dvd_rfl
  have h4 := (iterate_eq_iff h (2 ^ 64)).mpr dvd_rfl
  rw [show (2 : ℕ) ^ 64 = (2 ^ 64 - 1) + 1 by norm_num, Function.iterate_succ_apply] at h3 h4
  rw [← h3, ← h4, hgh]

/-- Drawing `j` times as one step, with `j` odd: still all `2^64` states are visited. -/
theorem visits (g : Pcg) {j : ℕ} (hj : ¬ 2 ∣ j) (s : BitVec 64) :
    ∃ n < 2 ^ 64, (advance^[j * n] g).state = s := by
  let f : Fin (2 ^ 64) → BitVec 64 := fun n => (advance^[j * n.1] g).state
  have hcop : Nat.Coprime (2 ^ 64) j := by
    apply Nat.Coprime.pow_left
    exact (Nat.Prime.coprime_iff_not_dvd Nat.prime_two).mpr hj
  have key : ∀ m n : ℕ, m ≤ n → n < 2 ^ 64 → (advance^[j * m] g).state = (advance^[j * n] g).state → m = n := by
    intro m n hmn hn h
    have h1 : advance^[j * m] g = advance^[j * n] g :=
      ext_state h (by rw [inc_iterate, inc_iterate])
    obtain ⟨d, rfl⟩ := Nat.exists_eq_add_of_le hmn
    rw [mul_add, Function.iterate_add_apply] at h1
    have h2 := (iterate_eq_iff g (j * d)).mp ((advance_injective.iterate (j * m)) h1).symm
    have h3 := hcop.dvd_of_dvd_mul_left h2
    have : d = 0 := Nat.eq_zero_of_dvd_of_lt h3 (by omega)
    omega
  have hinj : Function.Injective f := by
    intro m n h
    rcases Nat.le_total m.1 n.1 with h' | h'
    · exact Fin.ext (key _ _ h' n.2 h)
    · exact Fin.ext (key _ _ h' m.2 h.symm).symm
  let e : Fin (2 ^ 64) → Fin (2 ^ 64) := fun n => (f n).toFin
  have hsurj : Function.Surjective e := by
    have : Function.Injective e := fun m n h => hinj (BitVec.toFin_inj.mp h)
    exact Finite.surjective_of_injective this
  obtain ⟨n, hn⟩ := hsurj s.toFin
  exact ⟨n.1, n.2, BitVec.toFin_inj.mp hn⟩

end Pcg
end DRT
