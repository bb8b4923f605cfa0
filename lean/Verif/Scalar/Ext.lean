import Verif.Scalar.Basic
import Verif.Scalar.Attr
import Mathlib.Analysis.SpecialFunctions.Trigonometric.Inverse
import Mathlib.Analysis.SpecialFunctions.Complex.Arg
import Mathlib.Analysis.SpecialFunctions.Pow.Real
import Mathlib.Algebra.Order.Floor.Ring

/-!
# Extended reals with NaN, formats, and the scalar instance

`Ext` has the values of an IEEE-754 type up to rounding and the sign of zero.
A `Fmt` fixes the rounding function and the constants.
-/

namespace DRT

/-- NaN, the infinities and the finite values. -/
inductive Ext where
  | nan
  | ninf
  | fin (x : ℝ)
  | pinf

/-- A floating-point format: how a finite exact result is rounded, and the `numeric_limits` constants.
Nothing is assumed about `round`, so a theorem about all formats is a theorem about all roundings. -/
structure Fmt where
  /-- Rounding of a finite exact result. May overflow to an infinity. -/
  round : ℝ → Ext
  /-- `epsilon()` -/
  eps : ℝ
  /-- `min()` -/
  tiny : ℝ
  /-- `max()` -/
  big : ℝ
  /-- `M_PI` -/
  pi : ℝ
  /-- Whether `x/0` is `+inf` (simplification S2: there is a single zero). -/
  zdiv : ℝ → Bool

/-- Values of format `F`. -/
def Fl (_ : Fmt) : Type := Ext

/-- Exact arithmetic: finite results are not rounded and `M_PI` is π. -/
class Fmt.Exact (F : Fmt) : Prop where
  round_eq : ∀ x, F.round x = .fin x
  pi_eq : F.pi = Real.pi
  eps_pos : 0 < F.eps
  eps_lt : F.eps < 1
  tiny_nonneg : 0 ≤ F.tiny
  tiny_lt : F.tiny < 1
  big_pos : 0 < F.big

namespace Fl
variable {F : Fmt}

/-- NaN of the format. -/
protected def nan : Fl F := Ext.nan
/-- Positive infinity. -/
def pinf : Fl F := Ext.pinf
/-- Negative infinity. -/
def ninf : Fl F := Ext.ninf
/-- A finite value. -/
@[coe] def fin (x : ℝ) : Fl F := Ext.fin x

instance : Coe ℝ (Fl F) := ⟨fin⟩

@[elab_as_elim, cases_eliminator]
theorem casesOn' {motive : Fl F → Prop} (x : Fl F) (nan : motive Fl.nan) (ninf : motive ninf)
    (fin : ∀ r : ℝ, motive (fin r)) (pinf : motive pinf) : motive x := by
  match x with
  | Ext.nan => exact nan
  | Ext.ninf => exact ninf
  | Ext.fin r => exact fin r
  | Ext.pinf => exact pinf

/-- Rounding of an exact result. -/
def rnd (F : Fmt) (x : ℝ) : Fl F := F.round x

/-- An infinity with the sign of a nonzero real. -/
noncomputable def infOf (x : ℝ) : Fl F := if 0 < x then Ext.pinf else Ext.ninf

/-- IEEE negation. -/
protected noncomputable def neg : Fl F → Fl F
  | Ext.nan => Ext.nan
  | Ext.ninf => Ext.pinf
  | Ext.fin x => Ext.fin (-x)
  | Ext.pinf => Ext.ninf

/-- IEEE addition followed by rounding. -/
protected noncomputable def add (x y : Fl F) : Fl F :=
  match x with
  | Ext.nan => Ext.nan
  | Ext.fin a => match y with
    | Ext.nan => Ext.nan
    | Ext.fin b => rnd F (a + b)
    | Ext.pinf => Ext.pinf
    | Ext.ninf => Ext.ninf
  | Ext.pinf => match y with
    | Ext.nan => Ext.nan
    | Ext.fin _ => Ext.pinf
    | Ext.pinf => Ext.pinf
    | Ext.ninf => Ext.nan
  | Ext.ninf => match y with
    | Ext.nan => Ext.nan
    | Ext.fin _ => Ext.ninf
    | Ext.pinf => Ext.nan
    | Ext.ninf => Ext.ninf

/-- IEEE multiplication followed by rounding. -/
protected noncomputable def mul (x y : Fl F) : Fl F :=
  match x with
  | Ext.nan => Ext.nan
  | Ext.fin a => match y with
    | Ext.nan => Ext.nan
    | Ext.fin b => rnd F (a * b)
    | Ext.pinf => if a = 0 then Ext.nan else infOf a
    | Ext.ninf => if a = 0 then Ext.nan else infOf (-a)
  | Ext.pinf => match y with
    | Ext.nan => Ext.nan
    | Ext.fin b => if b = 0 then Ext.nan else infOf b
    | Ext.pinf => Ext.pinf
    | Ext.ninf => Ext.ninf
  | Ext.ninf => match y with
    | Ext.nan => Ext.nan
    | Ext.fin b => if b = 0 then Ext.nan else infOf (-b)
    | Ext.pinf => Ext.ninf
    | Ext.ninf => Ext.pinf

/-- IEEE division followed by rounding; the sign of `x/0` is chosen by the format (S2). -/
protected noncomputable def div (x y : Fl F) : Fl F :=
  match x with
  | Ext.nan => Ext.nan
  | Ext.fin a => match y with
    | Ext.nan => Ext.nan
    | Ext.fin b =>
      if b = 0 then (if a = 0 then Ext.nan else if F.zdiv a then Ext.pinf else Ext.ninf)
      else rnd F (a / b)
    | Ext.pinf => Ext.fin 0
    | Ext.ninf => Ext.fin 0
  | Ext.pinf => match y with
    | Ext.fin b => if b = 0 then (if F.zdiv 1 then Ext.pinf else Ext.ninf) else infOf b
    | _ => Ext.nan
  | Ext.ninf => match y with
    | Ext.fin b => if b = 0 then (if F.zdiv (-1) then Ext.pinf else Ext.ninf) else infOf (-b)
    | _ => Ext.nan

/-- IEEE `<`. -/
protected noncomputable def lt (x y : Fl F) : Bool :=
  match x with
  | Ext.nan => false
  | Ext.fin a => match y with
    | Ext.nan => false
    | Ext.fin b => decide (a < b)
    | Ext.pinf => true
    | Ext.ninf => false
  | Ext.pinf => false
  | Ext.ninf => match y with
    | Ext.nan => false
    | Ext.ninf => false
    | _ => true

/-- IEEE `==`. -/
protected noncomputable def eq (x y : Fl F) : Bool :=
  match x with
  | Ext.nan => false
  | Ext.fin a => match y with
    | Ext.fin b => decide (a = b)
    | _ => false
  | Ext.pinf => match y with
    | Ext.pinf => true
    | _ => false
  | Ext.ninf => match y with
    | Ext.ninf => true
    | _ => false

/-- IEEE `<=`. -/
protected noncomputable def le (x y : Fl F) : Bool := Fl.lt x y || Fl.eq x y

/-- `std::isnan`. -/
protected def isNaN : Fl F → Bool
  | Ext.nan => true
  | _ => false

/-- `std::abs`. -/
protected noncomputable def abs : Fl F → Fl F
  | Ext.nan => Ext.nan
  | Ext.ninf => Ext.pinf
  | Ext.fin x => Ext.fin |x|
  | Ext.pinf => Ext.pinf

/-- `std::sqrt`. -/
protected noncomputable def sqrt : Fl F → Fl F
  | Ext.nan => Ext.nan
  | Ext.ninf => Ext.nan
  | Ext.fin x => if x < 0 then Ext.nan else rnd F (Real.sqrt x)
  | Ext.pinf => Ext.pinf

/-- Real cube root. -/
noncomputable def realCbrt (x : ℝ) : ℝ := if 0 ≤ x then x ^ ((1 : ℝ) / 3) else -((-x) ^ ((1 : ℝ) / 3))

/-- `std::cbrt`. -/
protected noncomputable def cbrt : Fl F → Fl F
  | Ext.fin x => rnd F (realCbrt x)
  | x => x

/-- A function with a NaN at the infinities. -/
protected noncomputable def lift (f : ℝ → ℝ) : Fl F → Fl F
  | Ext.fin x => rnd F (f x)
  | _ => Ext.nan

/-- `std::tan`; NaN at a pole, which is no number of a binary format. -/
protected noncomputable def tan : Fl F → Fl F
  | Ext.fin x => if Real.cos x = 0 then Ext.nan else rnd F (Real.tan x)
  | _ => Ext.nan

/-- `std::acos`, `std::asin`: NaN outside [-1,1]. -/
noncomputable def liftUnit (f : ℝ → ℝ) : Fl F → Fl F
  | Ext.fin x => if -1 ≤ x ∧ x ≤ 1 then rnd F (f x) else Ext.nan
  | _ => Ext.nan

/-- `std::exp`. -/
protected noncomputable def exp : Fl F → Fl F
  | Ext.nan => Ext.nan
  | Ext.ninf => Ext.fin 0
  | Ext.fin x => rnd F (Real.exp x)
  | Ext.pinf => Ext.pinf

/-- `std::log`. -/
protected noncomputable def log : Fl F → Fl F
  | Ext.nan => Ext.nan
  | Ext.ninf => Ext.nan
  | Ext.fin x => if x < 0 then Ext.nan else if x = 0 then Ext.ninf else rnd F (Real.log x)
  | Ext.pinf => Ext.pinf

/-- `atan2(y,x)` on finite values, as the argument of `x + iy`. -/
noncomputable def realAtan2 (y x : ℝ) : ℝ := Complex.arg (Complex.mk x y)

/-- `std::atan2`. -/
protected noncomputable def atan2 (y x : Fl F) : Fl F :=
  match y with
  | Ext.nan => Ext.nan
  | Ext.fin b => match x with
    | Ext.nan => Ext.nan
    | Ext.fin a => rnd F (realAtan2 b a)
    | Ext.pinf => Ext.fin 0
    | Ext.ninf => if 0 ≤ b then rnd F Real.pi else rnd F (-Real.pi)
  | Ext.pinf => match x with
    | Ext.nan => Ext.nan
    | Ext.fin _ => rnd F (Real.pi / 2)
    | Ext.pinf => rnd F (Real.pi / 4)
    | Ext.ninf => rnd F (3 * Real.pi / 4)
  | Ext.ninf => match x with
    | Ext.nan => Ext.nan
    | Ext.fin _ => rnd F (-(Real.pi / 2))
    | Ext.pinf => rnd F (-(Real.pi / 4))
    | Ext.ninf => rnd F (-(3 * Real.pi / 4))

/-- `std::copysign(x,s)`; a zero or NaN sign argument counts as positive (S2). -/
protected noncomputable def copysign (x : Fl F) : Fl F → Fl F
  | Ext.fin s => if s < 0 then Fl.neg (Fl.abs x) else Fl.abs x
  | Ext.ninf => Fl.neg (Fl.abs x)
  | _ => Fl.abs x

/-- `std::fma`: one rounding when all arguments are finite. -/
protected noncomputable def fma (x y z : Fl F) : Fl F :=
  match x, y, z with
  | Ext.fin a, Ext.fin b, Ext.fin c => rnd F (a * b + c)
  | _, _, _ => Fl.add (Fl.mul x y) z

/-- `std::pow(x,p)` with an integer exponent. -/
protected noncomputable def powi (x : Fl F) (p : ℤ) : Fl F :=
  if p = 0 then Ext.fin 1
  else match x with
  | Ext.nan => Ext.nan
  | Ext.fin a => if a = 0 ∧ p < 0 then Ext.pinf else rnd F (a ^ p)
  | Ext.pinf => if 0 < p then Ext.pinf else Ext.fin 0
  | Ext.ninf => if 0 < p then (if p % 2 = 0 then Ext.pinf else Ext.ninf) else Ext.fin 0

/-- `std::floor`. -/
protected noncomputable def floor : Fl F → Fl F
  | Ext.fin x => Ext.fin (⌊x⌋ : ℤ)
  | x => x

/-- `std::round` and conversion to an integer type. -/
protected noncomputable def llround : Fl F → Option ℤ
  | Ext.fin x => some (if 0 ≤ x then ⌊x + 1 / 2⌋ else ⌈x - 1 / 2⌉)
  | _ => none

/-- Truncation to an integer; `none` for NaN and infinities. -/
protected noncomputable def toInt : Fl F → Option ℤ
  | Ext.fin x => some (if 0 ≤ x then ⌊x⌋ else ⌈x⌉)
  | _ => none

noncomputable instance : Scalar (Fl F) where
  add := Fl.add
  sub x y := Fl.add x (Fl.neg y)
  mul := Fl.mul
  div := Fl.div
  neg := Fl.neg
  lit q := rnd F q
  lt := Fl.lt
  le := Fl.le
  eq := Fl.eq
  isNaN := Fl.isNaN
  nan := Fl.nan
  inf := pinf
  eps := fin F.eps
  tiny := fin F.tiny
  big := fin F.big
  pi := fin F.pi
  abs := Fl.abs
  sqrt := Fl.sqrt
  cbrt := Fl.cbrt
  sin := Fl.lift Real.sin
  cos := Fl.lift Real.cos
  tan := Fl.tan
  acos := liftUnit Real.arccos
  asin := liftUnit Real.arcsin
  exp := Fl.exp
  log := Fl.log
  atan2 := Fl.atan2
  copysign := Fl.copysign
  fma := Fl.fma
  powi := Fl.powi
  floor := Fl.floor
  toInt := Fl.toInt
  llround := Fl.llround
  ldexp32 k := rnd F ((k : ℝ) / 2 ^ 32)

end Fl
end DRT
