import Verif.Scalar.Ext
import Mathlib.Tactic.Linarith
import Mathlib.Tactic.Ring
import Mathlib.Tactic.FieldSimp
import Mathlib.Tactic.NormNum
import Mathlib.Tactic.Positivity
import Mathlib.Algebra.BigOperators.Fin

/-!
# Reduction of model operations on finite values to real arithmetic (simp set `fl`)
-/

namespace DRT
namespace Fl
open scoped Scalar
variable {F : Fmt}

/-! ## Constructors are distinct -/

@[fl, simp] theorem fin_inj {a b : ℝ} : (fin a : Fl F) = fin b ↔ a = b :=
  ⟨fun h => Ext.fin.inj h, fun h => by rw [h]⟩
@[fl, simp] theorem nan_ne_fin {a : ℝ} : (Fl.nan : Fl F) ≠ fin a := fun h => Ext.noConfusion h
@[fl, simp] theorem fin_ne_nan {a : ℝ} : (fin a : Fl F) ≠ Fl.nan := fun h => Ext.noConfusion h
@[fl, simp] theorem nan_ne_pinf : (Fl.nan : Fl F) ≠ pinf := fun h => Ext.noConfusion h
@[fl, simp] theorem pinf_ne_nan : (pinf : Fl F) ≠ Fl.nan := fun h => Ext.noConfusion h
@[fl, simp] theorem nan_ne_ninf : (Fl.nan : Fl F) ≠ ninf := fun h => Ext.noConfusion h
@[fl, simp] theorem ninf_ne_nan : (ninf : Fl F) ≠ Fl.nan := fun h => Ext.noConfusion h
@[fl, simp] theorem pinf_ne_fin {a : ℝ} : (pinf : Fl F) ≠ fin a := fun h => Ext.noConfusion h
@[fl, simp] theorem fin_ne_pinf {a : ℝ} : (fin a : Fl F) ≠ pinf := fun h => Ext.noConfusion h
@[fl, simp] theorem ninf_ne_fin {a : ℝ} : (ninf : Fl F) ≠ fin a := fun h => Ext.noConfusion h
@[fl, simp] theorem fin_ne_ninf {a : ℝ} : (fin a : Fl F) ≠ ninf := fun h => Ext.noConfusion h
@[fl, simp] theorem pinf_ne_ninf : (pinf : Fl F) ≠ ninf := fun h => Ext.noConfusion h
@[fl, simp] theorem ninf_ne_pinf : (ninf : Fl F) ≠ pinf := fun h => Ext.noConfusion h

/-! ## Comparisons (any format) -/

@[fl, simp] theorem lt_fin (a b : ℝ) : Scalar.lt (fin a : Fl F) (fin b) = decide (a < b) := by
  rfl
@[fl, simp] theorem eq_fin (a b : ℝ) : Scalar.eq (fin a : Fl F) (fin b) = decide (a = b) := by
  rfl
@[fl, simp] theorem le_fin (a b : ℝ) : Scalar.le (fin a : Fl F) (fin b) = decide (a ≤ b) := by
  have h1 := lt_fin (F := F) a b
  have h2 := eq_fin (F := F) a b
  show (Fl.lt _ _ || Fl.eq _ _) = _
  change Fl.lt _ _ = _ at h1
  change Fl.eq _ _ = _ at h2
  rw [h1, h2, Bool.eq_iff_iff]
  simp [le_iff_lt_or_eq]
@[fl, simp] theorem lt_nan (x : Fl F) : Scalar.lt x Fl.nan = false := by
  cases x <;> rfl
@[fl, simp] theorem nan_lt (x : Fl F) : Scalar.lt Fl.nan x = false := by
  cases x <;> rfl
@[fl, simp] theorem le_nan (x : Fl F) : Scalar.le x Fl.nan = false := by
  cases x <;> rfl
@[fl, simp] theorem nan_le (x : Fl F) : Scalar.le Fl.nan x = false := by
  cases x <;> rfl
@[fl, simp] theorem eq_nan (x : Fl F) : Scalar.eq x Fl.nan = false := by
  cases x <;> rfl
@[fl, simp] theorem nan_eq (x : Fl F) : Scalar.eq Fl.nan x = false := by
  cases x <;> rfl
@[fl, simp] theorem lt_ninf (x : Fl F) : Scalar.lt x ninf = false := by
  cases x <;> rfl
@[fl, simp] theorem pinf_lt (x : Fl F) : Scalar.lt pinf x = false := by
  cases x <;> rfl
@[fl, simp] theorem ninf_lt_fin (a : ℝ) : Scalar.lt (ninf : Fl F) (fin a) = true := rfl
@[fl, simp] theorem fin_lt_pinf (a : ℝ) : Scalar.lt (fin a : Fl F) pinf = true := rfl
@[fl, simp] theorem ninf_lt_pinf : Scalar.lt (ninf : Fl F) pinf = true := rfl
@[fl, simp] theorem ninf_le_fin (a : ℝ) : Scalar.le (ninf : Fl F) (fin a) = true := rfl
@[fl, simp] theorem fin_le_pinf (a : ℝ) : Scalar.le (fin a : Fl F) pinf = true := rfl
@[fl, simp] theorem ninf_le_pinf : Scalar.le (ninf : Fl F) pinf = true := rfl
@[fl, simp] theorem ninf_le_ninf : Scalar.le (ninf : Fl F) ninf = true := rfl
@[fl, simp] theorem pinf_le_pinf : Scalar.le (pinf : Fl F) pinf = true := rfl
@[fl, simp] theorem fin_le_ninf (a : ℝ) : Scalar.le (fin a : Fl F) ninf = false := rfl
@[fl, simp] theorem pinf_le_fin (a : ℝ) : Scalar.le (pinf : Fl F) (fin a) = false := rfl
@[fl, simp] theorem pinf_le_ninf : Scalar.le (pinf : Fl F) ninf = false := rfl
@[fl, simp] theorem eq_pinf_fin (a : ℝ) : Scalar.eq (pinf : Fl F) (fin a) = false := rfl
@[fl, simp] theorem eq_fin_pinf (a : ℝ) : Scalar.eq (fin a : Fl F) pinf = false := rfl
@[fl, simp] theorem eq_ninf_fin (a : ℝ) : Scalar.eq (ninf : Fl F) (fin a) = false := rfl
@[fl, simp] theorem eq_fin_ninf (a : ℝ) : Scalar.eq (fin a : Fl F) ninf = false := rfl
@[fl, simp] theorem eq_pinf_pinf : Scalar.eq (pinf : Fl F) pinf = true := rfl
@[fl, simp] theorem eq_ninf_ninf : Scalar.eq (ninf : Fl F) ninf = true := rfl
@[fl, simp] theorem eq_pinf_ninf : Scalar.eq (pinf : Fl F) ninf = false := rfl
@[fl, simp] theorem eq_ninf_pinf : Scalar.eq (ninf : Fl F) pinf = false := rfl
@[fl, simp] theorem isNaN_fin (a : ℝ) : Scalar.isNaN (fin a : Fl F) = false := rfl
@[fl, simp] theorem isNaN_nan : Scalar.isNaN (Fl.nan : Fl F) = true := rfl
@[fl, simp] theorem isNaN_pinf : Scalar.isNaN (pinf : Fl F) = false := rfl
@[fl, simp] theorem isNaN_ninf : Scalar.isNaN (ninf : Fl F) = false := rfl

attribute [fl] Scalar.gt Scalar.ge Scalar.ne

/-! ## Constants -/

@[fl, simp] theorem nan_def : (Scalar.nan : Fl F) = Fl.nan := rfl
@[fl, simp] theorem inf_def : (Scalar.inf : Fl F) = pinf := rfl
@[fl] theorem eps_def : (Scalar.eps : Fl F) = fin F.eps := rfl
@[fl] theorem tiny_def : (Scalar.tiny : Fl F) = fin F.tiny := rfl
@[fl] theorem big_def : (Scalar.big : Fl F) = fin F.big := rfl

/-! ## Arithmetic with special values (any format) -/

@[fl, simp] protected theorem neg_fin (a : ℝ) : -(fin a : Fl F) = fin (-a) := rfl
@[fl, simp] protected theorem neg_nan : -(Fl.nan : Fl F) = Fl.nan := rfl
@[fl, simp] theorem neg_pinf : -(pinf : Fl F) = ninf := rfl
@[fl, simp] theorem neg_ninf : -(ninf : Fl F) = pinf := rfl
@[fl, simp] theorem nan_add (x : Fl F) : Fl.nan + x = Fl.nan := by cases x <;> rfl
@[fl, simp] theorem add_nan (x : Fl F) : x + Fl.nan = Fl.nan := by cases x <;> rfl
@[fl, simp] theorem fin_add_pinf (a : ℝ) : (fin a : Fl F) + pinf = pinf := rfl
@[fl, simp] theorem fin_add_ninf (a : ℝ) : (fin a : Fl F) + ninf = ninf := rfl
@[fl, simp] theorem pinf_add_fin (a : ℝ) : (pinf : Fl F) + fin a = pinf := rfl
@[fl, simp] theorem ninf_add_fin (a : ℝ) : (ninf : Fl F) + fin a = ninf := rfl
@[fl, simp] theorem pinf_add_pinf : (pinf : Fl F) + pinf = pinf := rfl
@[fl, simp] theorem ninf_add_ninf : (ninf : Fl F) + ninf = ninf := rfl
@[fl, simp] theorem pinf_add_ninf : (pinf : Fl F) + ninf = Fl.nan := rfl
@[fl, simp] theorem ninf_add_pinf : (ninf : Fl F) + pinf = Fl.nan := rfl
protected theorem sub_eq (x y : Fl F) : x - y = x + -y := rfl
@[fl, simp] theorem nan_sub (x : Fl F) : Fl.nan - x = Fl.nan := by cases x <;> rfl
@[fl, simp] theorem sub_nan (x : Fl F) : x - Fl.nan = Fl.nan := by cases x <;> rfl
@[fl, simp] theorem fin_sub_pinf (a : ℝ) : (fin a : Fl F) - pinf = ninf := rfl
@[fl, simp] theorem fin_sub_ninf (a : ℝ) : (fin a : Fl F) - ninf = pinf := rfl
@[fl, simp] theorem pinf_sub_fin (a : ℝ) : (pinf : Fl F) - fin a = pinf := rfl
@[fl, simp] theorem ninf_sub_fin (a : ℝ) : (ninf : Fl F) - fin a = ninf := rfl
@[fl, simp] theorem pinf_sub_pinf : (pinf : Fl F) - pinf = Fl.nan := rfl
@[fl, simp] theorem ninf_sub_ninf : (ninf : Fl F) - ninf = Fl.nan := rfl
@[fl, simp] theorem pinf_sub_ninf : (pinf : Fl F) - ninf = pinf := rfl
@[fl, simp] theorem ninf_sub_pinf : (ninf : Fl F) - pinf = ninf := rfl
@[fl, simp] theorem nan_mul (x : Fl F) : Fl.nan * x = Fl.nan := by cases x <;> rfl
@[fl, simp] theorem mul_nan (x : Fl F) : x * Fl.nan = Fl.nan := by cases x <;> rfl
theorem fin_mul_pinf (a : ℝ) : (fin a : Fl F) * pinf = if a = 0 then Fl.nan else infOf a := rfl
theorem fin_mul_ninf (a : ℝ) : (fin a : Fl F) * ninf = if a = 0 then Fl.nan else infOf (-a) := rfl
theorem pinf_mul_fin (a : ℝ) : (pinf : Fl F) * fin a = if a = 0 then Fl.nan else infOf a := rfl
theorem ninf_mul_fin (a : ℝ) : (ninf : Fl F) * fin a = if a = 0 then Fl.nan else infOf (-a) := rfl
@[fl, simp] theorem pinf_mul_pinf : (pinf : Fl F) * pinf = pinf := rfl
@[fl, simp] theorem ninf_mul_ninf : (ninf : Fl F) * ninf = pinf := rfl
@[fl, simp] theorem pinf_mul_ninf : (pinf : Fl F) * ninf = ninf := rfl
@[fl, simp] theorem ninf_mul_pinf : (ninf : Fl F) * pinf = ninf := rfl
theorem infOf_pos {a : ℝ} (h : 0 < a) : (infOf a : Fl F) = pinf := by
  show (if 0 < a then pinf else ninf) = _
  rw [if_pos h]
theorem infOf_neg {a : ℝ} (h : a < 0) : (infOf a : Fl F) = ninf := by
  show (if 0 < a then pinf else ninf) = _
  rw [if_neg (not_lt.mpr h.le)]
@[fl, simp] theorem nan_div (x : Fl F) : Fl.nan / x = Fl.nan := by cases x <;> rfl
@[fl, simp] theorem div_nan (x : Fl F) : x / Fl.nan = Fl.nan := by cases x <;> rfl
@[fl, simp] theorem fin_div_pinf (a : ℝ) : (fin a : Fl F) / pinf = fin 0 := rfl
@[fl, simp] theorem fin_div_ninf (a : ℝ) : (fin a : Fl F) / ninf = fin 0 := rfl
@[fl, simp] theorem pinf_div_pinf : (pinf : Fl F) / pinf = Fl.nan := rfl
@[fl, simp] theorem pinf_div_ninf : (pinf : Fl F) / ninf = Fl.nan := rfl
@[fl, simp] theorem ninf_div_pinf : (ninf : Fl F) / pinf = Fl.nan := rfl
@[fl, simp] theorem ninf_div_ninf : (ninf : Fl F) / ninf = Fl.nan := rfl
@[fl, simp] protected theorem zero_div_zero : (fin 0 : Fl F) / fin 0 = Fl.nan := by
  show (if (0:ℝ) = 0 then (if (0:ℝ) = 0 then Fl.nan else if F.zdiv 0 then pinf else ninf) else rnd F (0/0)) = _
  rw [if_pos rfl, if_pos rfl]
theorem fin_div_zero {a : ℝ} (h : a ≠ 0) :
    (fin a : Fl F) / fin 0 = if F.zdiv a then pinf else ninf := by
  show (if (0:ℝ) = 0 then (if a = 0 then Fl.nan else if F.zdiv a then pinf else ninf) else rnd F (a/0)) = _
  rw [if_pos rfl, if_neg h]
theorem fin_div_zero_cases {a : ℝ} (h : a ≠ 0) :
    (fin a : Fl F) / fin 0 = pinf ∨ (fin a : Fl F) / fin 0 = ninf := by
  rw [fin_div_zero h]; split <;> simp
theorem fin_div_zero_ne (a b : ℝ) : (fin a : Fl F) / fin 0 ≠ fin b := by
  by_cases h : a = 0
  · subst h; simp
  · rcases fin_div_zero_cases (F := F) h with h | h <;> simp [h]
@[fl, simp] theorem abs_fin (a : ℝ) : Scalar.abs (fin a : Fl F) = fin |a| := rfl
@[fl, simp] theorem abs_nan : Scalar.abs (Fl.nan : Fl F) = Fl.nan := rfl
@[fl, simp] theorem abs_pinf : Scalar.abs (pinf : Fl F) = pinf := rfl
@[fl, simp] theorem abs_ninf : Scalar.abs (ninf : Fl F) = pinf := rfl
@[fl, simp] theorem sqrt_nan : Scalar.sqrt (Fl.nan : Fl F) = Fl.nan := rfl
@[fl, simp] theorem sqrt_pinf : Scalar.sqrt (pinf : Fl F) = pinf := rfl
@[fl, simp] theorem sqrt_ninf : Scalar.sqrt (ninf : Fl F) = Fl.nan := rfl
theorem sqrt_neg {a : ℝ} (h : a < 0) : Scalar.sqrt (fin a : Fl F) = Fl.nan := by
  show (if a < 0 then Fl.nan else rnd F (Real.sqrt a)) = _
  rw [if_pos h]
@[fl, simp] theorem sin_nan : Scalar.sin (Fl.nan : Fl F) = Fl.nan := rfl
@[fl, simp] theorem cos_nan : Scalar.cos (Fl.nan : Fl F) = Fl.nan := rfl
@[fl, simp] theorem log_nan : Scalar.log (Fl.nan : Fl F) = Fl.nan := rfl
@[fl, simp] theorem log_pinf : Scalar.log (pinf : Fl F) = pinf := rfl
@[fl, simp] theorem log_zero : Scalar.log (fin 0 : Fl F) = ninf := by
  show (if (0:ℝ) < 0 then Fl.nan else if (0:ℝ) = 0 then ninf else rnd F (Real.log 0)) = _
  rw [if_neg (_root_.lt_irrefl _), if_pos rfl]
@[fl, simp] theorem exp_nan : Scalar.exp (Fl.nan : Fl F) = Fl.nan := rfl
@[fl, simp] theorem exp_pinf : Scalar.exp (pinf : Fl F) = pinf := rfl
@[fl, simp] theorem exp_ninf : Scalar.exp (ninf : Fl F) = fin 0 := rfl
@[fl, simp] theorem floor_fin (a : ℝ) : Scalar.floor (fin a : Fl F) = fin (⌊a⌋ : ℤ) := rfl
@[fl, simp] theorem floor_nan : Scalar.floor (Fl.nan : Fl F) = Fl.nan := rfl
@[fl, simp] theorem toInt_nan : Scalar.toInt (Fl.nan : Fl F) = none := rfl
@[fl, simp] theorem toInt_pinf : Scalar.toInt (pinf : Fl F) = none := rfl
@[fl, simp] theorem toInt_ninf : Scalar.toInt (ninf : Fl F) = none := rfl
@[fl] theorem toInt_fin (a : ℝ) :
    Scalar.toInt (fin a : Fl F) = some (if 0 ≤ a then ⌊a⌋ else ⌈a⌉) := by
  rfl
theorem copysign_fin_of_nonneg (x : Fl F) {s : ℝ} (h : 0 ≤ s) :
    Scalar.copysign x (fin s) = Scalar.abs x := by
  show (if s < 0 then -Scalar.abs x else Scalar.abs x) = _
  rw [if_neg (not_lt.mpr h)]
theorem copysign_fin_of_neg (x : Fl F) {s : ℝ} (h : s < 0) :
    Scalar.copysign x (fin s) = -Scalar.abs x := by
  show (if s < 0 then -Scalar.abs x else Scalar.abs x) = _
  rw [if_pos h]

/-! ## Exact formats -/

section exact
variable [F.Exact]

theorem rnd_eq (x : ℝ) : rnd F x = fin x := Fmt.Exact.round_eq x
@[fl] theorem pi_def : (Scalar.pi : Fl F) = fin Real.pi := by
  show fin F.pi = _
  rw [Fmt.Exact.pi_eq]
@[fl, simp] theorem lit_def (q : ℚ) : (Scalar.lit q : Fl F) = fin (q : ℝ) := rnd_eq _
@[fl, simp] theorem ofNat_def (n : ℕ) :
    (@OfNat.ofNat (Fl F) n (Scalar.instOfNat n)) = fin (n : ℝ) := by
  show Scalar.lit (n : ℚ) = _
  rw [lit_def]; simp
@[fl] theorem ofNat_zero : (0 : Fl F) = fin 0 := by rw [ofNat_def]; simp
@[fl] theorem ofNat_one : (1 : Fl F) = fin 1 := by rw [ofNat_def]; simp
@[fl, simp] theorem add_fin (a b : ℝ) : (fin a : Fl F) + fin b = fin (a + b) := rnd_eq _
@[fl, simp] theorem sub_fin (a b : ℝ) : (fin a : Fl F) - fin b = fin (a - b) := by
  rw [Fl.sub_eq, Fl.neg_fin, add_fin, sub_eq_add_neg]
@[fl, simp] theorem mul_fin (a b : ℝ) : (fin a : Fl F) * fin b = fin (a * b) := rnd_eq _
theorem div_fin {b : ℝ} (a : ℝ) (h : b ≠ 0) : (fin a : Fl F) / fin b = fin (a / b) := by
  show (if b = 0 then (if a = 0 then Fl.nan else if F.zdiv a then pinf else ninf) else rnd F (a/b)) = _
  rw [if_neg h, rnd_eq]
@[fl, simp] theorem fma_fin (a b c : ℝ) :
    Scalar.fma (fin a : Fl F) (fin b) (fin c) = fin (a * b + c) := rnd_eq _
theorem sqrt_fin {a : ℝ} (h : 0 ≤ a) : Scalar.sqrt (fin a : Fl F) = fin (Real.sqrt a) := by
  show (if a < 0 then Fl.nan else rnd F (Real.sqrt a)) = _
  rw [if_neg (not_lt.mpr h), rnd_eq]
@[fl, simp] theorem cbrt_fin (a : ℝ) : Scalar.cbrt (fin a : Fl F) = fin (realCbrt a) := rnd_eq _
@[fl, simp] theorem sin_fin (a : ℝ) : Scalar.sin (fin a : Fl F) = fin (Real.sin a) := rnd_eq _
@[fl, simp] theorem cos_fin (a : ℝ) : Scalar.cos (fin a : Fl F) = fin (Real.cos a) := rnd_eq _
theorem tan_fin {a : ℝ} (h : Real.cos a ≠ 0) : Scalar.tan (fin a : Fl F) = fin (Real.tan a) := by
  show (if Real.cos a = 0 then Fl.nan else rnd F _) = _
  rw [if_neg h, rnd_eq]
theorem tan_pole {a : ℝ} (h : Real.cos a = 0) : Scalar.tan (fin a : Fl F) = Fl.nan := by
  show (if Real.cos a = 0 then Fl.nan else rnd F _) = _
  rw [if_pos h]
@[fl, simp] theorem exp_fin (a : ℝ) : Scalar.exp (fin a : Fl F) = fin (Real.exp a) := rnd_eq _
@[fl, simp] theorem atan2_fin (a b : ℝ) :
    Scalar.atan2 (fin a : Fl F) (fin b) = fin (realAtan2 a b) := rnd_eq _
theorem acos_fin {a : ℝ} (h1 : -1 ≤ a) (h2 : a ≤ 1) :
    Scalar.acos (fin a : Fl F) = fin (Real.arccos a) := by
  show (if -1 ≤ a ∧ a ≤ 1 then rnd F _ else Fl.nan) = _
  rw [if_pos ⟨h1, h2⟩, rnd_eq]
theorem asin_fin {a : ℝ} (h1 : -1 ≤ a) (h2 : a ≤ 1) :
    Scalar.asin (fin a : Fl F) = fin (Real.arcsin a) := by
  show (if -1 ≤ a ∧ a ≤ 1 then rnd F _ else Fl.nan) = _
  rw [if_pos ⟨h1, h2⟩, rnd_eq]
theorem log_fin {a : ℝ} (h : 0 < a) : Scalar.log (fin a : Fl F) = fin (Real.log a) := by
  show (if a < 0 then Fl.nan else if a = 0 then ninf else rnd F (Real.log a)) = _
  rw [if_neg (not_lt.mpr h.le), if_neg h.ne', rnd_eq]
@[fl] theorem llround_fin (a : ℝ) : Scalar.llround (fin a : Fl F) = some (if 0 ≤ a then ⌊a + 1 / 2⌋ else ⌈a - 1 / 2⌉) := rfl
@[fl, simp] theorem ldexp32_def (k : ℕ) : (Scalar.ldexp32 k : Fl F) = fin ((k : ℝ) / 2 ^ 32) :=
  rnd_eq _
theorem powi_fin (a : ℝ) {p : ℤ} (h : 0 ≤ p) : Scalar.powi (fin a : Fl F) p = fin (a ^ p) := by
  show (if p = 0 then fin 1 else (if a = 0 ∧ p < 0 then pinf else rnd F (a ^ p))) = _
  split
  · next hp => rw [hp]; simp
  · rw [if_neg (fun h' => absurd h'.2 (not_lt.mpr h)), rnd_eq]

end exact

/-! ## Order facts (any format) -/

protected theorem lt_irrefl (x : Fl F) : Scalar.lt x x = false := by
  cases x <;> simp
protected theorem lt_trans {x y z : Fl F} (h1 : Scalar.lt x y = true) (h2 : Scalar.lt y z = true) :
    Scalar.lt x z = true := by
  cases x <;> cases y <;> cases z <;> simp_all
  exact h1.trans h2
protected theorem le_trans {x y z : Fl F} (h1 : Scalar.le x y = true) (h2 : Scalar.le y z = true) :
    Scalar.le x z = true := by
  cases x <;> cases y <;> cases z <;> simp_all
  exact h1.trans h2
protected theorem lt_of_lt_of_le {x y z : Fl F} (h1 : Scalar.lt x y = true) (h2 : Scalar.le y z = true) :
    Scalar.lt x z = true := by
  cases x <;> cases y <;> cases z <;> simp_all
  exact _root_.lt_of_lt_of_le h1 h2
protected theorem lt_of_le_of_lt {x y z : Fl F} (h1 : Scalar.le x y = true) (h2 : Scalar.lt y z = true) :
    Scalar.lt x z = true := by
  cases x <;> cases y <;> cases z <;> simp_all
  exact _root_.lt_of_le_of_lt h1 h2
protected theorem le_of_lt {x y : Fl F} (h : Scalar.lt x y = true) : Scalar.le x y = true := by
  cases x <;> cases y <;> simp_all
  exact h.le
protected theorem le_refl {x : Fl F} (h : Scalar.isNaN x = false) : Scalar.le x x = true := by
  cases x <;> simp_all
protected theorem le_of_not_lt {x y : Fl F} (hx : Scalar.isNaN x = false) (hy : Scalar.isNaN y = false)
    (h : Scalar.lt x y = false) : Scalar.le y x = true := by
  cases x <;> cases y <;> simp_all
protected theorem not_lt_of_le {x y : Fl F} (h : Scalar.le x y = true) : Scalar.lt y x = false := by
  cases x <;> cases y <;> simp_all
protected theorem lt_of_not_le {x y : Fl F} (hx : Scalar.isNaN x = false) (hy : Scalar.isNaN y = false)
    (h : Scalar.le x y = false) : Scalar.lt y x = true := by
  cases x <;> cases y <;> simp_all
theorem not_nan_of_lt_left {x y : Fl F} (h : Scalar.lt x y = true) : Scalar.isNaN x = false := by
  cases x <;> simp_all
theorem not_nan_of_lt_right {x y : Fl F} (h : Scalar.lt x y = true) : Scalar.isNaN y = false := by
  cases x <;> cases y <;> simp_all
theorem not_nan_of_le_left {x y : Fl F} (h : Scalar.le x y = true) : Scalar.isNaN x = false := by
  cases x <;> simp_all
theorem not_nan_of_le_right {x y : Fl F} (h : Scalar.le x y = true) : Scalar.isNaN y = false := by
  cases x <;> cases y <;> simp_all
protected theorem le_antisymm {x y : Fl F} (h1 : Scalar.le x y = true) (h2 : Scalar.le y x = true) : x = y := by
  cases x <;> cases y <;> simp_all
  exact _root_.le_antisymm h1 h2
theorem isNaN_iff {x : Fl F} : Scalar.isNaN x = true ↔ x = Fl.nan := by
  cases x <;> simp

end Fl

/-- An exact format with the constants of binary64, used as a concrete instance. -/
noncomputable def exact64 : Fmt where
  round := .fin
  eps := 1 / 2 ^ 52
  tiny := 1 / 2 ^ 1022
  big := (2 - 1 / 2 ^ 52) * 2 ^ 1023
  pi := Real.pi
  zdiv x := decide (0 < x)

instance : exact64.Exact where
  round_eq _ := rfl
  pi_eq := rfl
  eps_pos := by simp [exact64]
  eps_lt := by simp only [exact64]; norm_num
  tiny_nonneg := by simp [exact64]
  tiny_lt := by
    simp only [exact64]
    rw [div_lt_one (by positivity)]
    exact one_lt_pow₀ (by norm_num) (by norm_num)
  big_pos := by simp only [exact64]; norm_num

open Scalar in
example : (2 : Fl exact64) + 3 = 5 := by simp only [fl]; norm_num

end DRT
