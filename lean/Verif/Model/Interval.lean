import Verif.Scalar.Basic

/-!
# Model of `include/drt/interval.hpp`

The functions that switch the rounding mode take a family of scalar operations indexed by the mode, and the mode at the
call; they return the mode afterwards. All other functions run in the ambient mode, that is, over one `Scalar R`.
-/

namespace DRT
open Scalar

variable {R : Type}

/-- interval.hpp:62-63, the members of `interval<Real>`. -/
structure Interval (R : Type) where
  /-- `a_` -/
  a : R
  /-- `b_` -/
  b : R

/-- The rounding modes of `<cfenv>`. -/
inductive Mode where
  | nearest
  | down
  | up
  | zero

namespace Interval

section modal
variable (S : Mode → Scalar R)

/-- `x + y` in mode `m`. -/
def addIn (m : Mode) (x y : R) : R := letI := S m; x + y
/-- `x - y` in mode `m`. -/
def subIn (m : Mode) (x y : R) : R := letI := S m; x - y
/-- `std::exp` in mode `m`. -/
def expIn (m : Mode) (x : R) : R := letI := S m; Scalar.exp x
/-- `std::log` in mode `m`. -/
def logIn (m : Mode) (x : R) : R := letI := S m; Scalar.log x
/-- `std::sqrt` in mode `m`. -/
def sqrtIn (m : Mode) (x : R) : R := letI := S m; Scalar.sqrt x

/-- interval.hpp:47-56, `operator-=` with an argument that is another object. -/
def subAssign (x r : Interval R) (mode : Mode) : Interval R × Mode :=
  let original := mode
  let mode := Mode.down
  let a := subIn S mode x.a r.b
  let mode := Mode.up
  let b := subIn S mode x.b r.a
  let mode := original
  (⟨a, b⟩, mode)

/-- interval.hpp:47-56, `operator-=` applied to the object itself, `x -= x`: `r` is a reference to `*this`, so the
second subtraction reads the new `a_`. -/
def subAssignSelf (x : Interval R) (mode : Mode) : Interval R × Mode :=
  let original := mode
  let mode := Mode.down
  let x : Interval R := ⟨subIn S mode x.a x.b, x.b⟩
  let mode := Mode.up
  let x : Interval R := ⟨x.a, subIn S mode x.b x.a⟩
  let mode := original
  (x, mode)

/-- interval.hpp:86-97, `operator+`. -/
def add (x r : Interval R) (mode : Mode) : Interval R × Mode :=
  let original := mode
  let mode := Mode.down
  let a := addIn S mode x.a r.a
  let mode := Mode.up
  let b := addIn S mode x.b r.b
  let mode := original
  (⟨a, b⟩, mode)

/-- interval.hpp:99-109, `operator-`. -/
def sub (x y : Interval R) (mode : Mode) : Interval R × Mode :=
  let original := mode
  let mode := Mode.down
  let a := subIn S mode x.a y.b
  let mode := Mode.up
  let b := subIn S mode x.b y.a
  let mode := original
  (⟨a, b⟩, mode)

/-- interval.hpp:195-205, `exp`. -/
def exp (x : Interval R) (mode : Mode) : Interval R × Mode :=
  let original := mode
  let mode := Mode.down
  let a := expIn S mode x.a
  let mode := Mode.up
  let b := expIn S mode x.b
  let mode := original
  (⟨a, b⟩, mode)

/-- interval.hpp:207-217, `log`. -/
def log (x : Interval R) (mode : Mode) : Interval R × Mode :=
  let original := mode
  let mode := Mode.down
  let a := logIn S mode x.a
  let mode := Mode.up
  let b := logIn S mode x.b
  let mode := original
  (⟨a, b⟩, mode)

/-- interval.hpp:219-234, `sqrt`. -/
def sqrt (x : Interval R) (mode : Mode) : Interval R × Mode :=
  let original := mode
  let mode := Mode.down
  let a := sqrtIn S mode x.a
  let mode := Mode.up
  let b := sqrtIn S mode x.b
  let mode := original
  (⟨a, b⟩, mode)

end modal

variable [Scalar R]

/-- interval.hpp:11-12, the default constructor. -/
protected def default : Interval R := ⟨Scalar.nan, Scalar.nan⟩

/-- interval.hpp:27-29, `empty()`. -/
def empty (x : Interval R) : Bool := lt x.b x.a

/-- interval.hpp:39-41, `width()`. -/
def width (x : Interval R) : R := x.b - x.a

/-- interval.hpp:43-45, `degenerate()` (returned as a `Real`). -/
def degenerate (x : Interval R) : Bool := eq x.a x.b

/-- interval.hpp:67-84, `operator>=` (the messages are not modelled). -/
def ge (x r : Interval R) : Bool :=
  if !x.empty then
    if Scalar.ge x.a r.b then true
    else if lt x.b r.a then false
    else false
  else false

/-- interval.hpp:111-127, `operator*`: the loop over the four products, in order. -/
def mul (x y : Interval R) : Interval R :=
  [x.a * y.a, x.a * y.b, x.b * y.a, x.b * y.b].foldl
    (fun ab p => ⟨if gt ab.a p then p else ab.a, if lt ab.b p then p else ab.b⟩) ⟨inf, -inf⟩

/-- interval.hpp:130-144, `operator/`. -/
def div (x y : Interval R) : Interval R :=
  if le y.a 0 && gt y.b 0 then mul x ⟨1 / y.b, inf⟩
  else mul x ⟨1 / y.b, 1 / y.a⟩

/-- interval.hpp:146-160, `pow(x, p)`. -/
def pow (x : Interval R) (p : ℤ) : Interval R :=
  if p % 2 = 0 then
    if Scalar.ge x.a 0 then ⟨powi x.a p, powi x.b p⟩
    else if le x.b 0 then ⟨powi x.b p, powi x.a p⟩
    else ⟨0, powi x.b p⟩
  else ⟨powi x.a p, powi x.b p⟩

/-- interval.hpp:162-171, `abs`, with `min`, `max` and `abs` read as the `std` functions (as written the names do not
resolve, so the template cannot be instantiated). -/
protected def abs (x : Interval R) : Interval R :=
  let a := Scalar.min (Scalar.abs x.a) (Scalar.abs x.b)
  let a := if lt x.a 0 && gt x.b 0 then 0 else a
  let b := Scalar.max (Scalar.abs x.a) (Scalar.abs x.b)
  ⟨a, b⟩

/-- interval.hpp:173-183, `intersection`. -/
def intersection (x y : Interval R) : Interval R :=
  if gt y.a x.b || gt x.a y.b then Interval.default
  else ⟨Scalar.max x.a y.a, Scalar.min x.b y.b⟩

/-- interval.hpp:187-193, `hull`. -/
def hull (x y : Interval R) : Interval R := ⟨Scalar.min x.a y.a, Scalar.min x.b y.b⟩

/-- interval.hpp:238-244, `distance`, with `abs` read as `std::abs`. -/
def distance (x y : Interval R) : R :=
  Scalar.max (Scalar.abs (x.a - y.a)) (Scalar.abs (x.b - y.b))

end Interval
end DRT
