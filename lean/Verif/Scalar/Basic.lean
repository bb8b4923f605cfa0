import Mathlib.Data.Rat.Defs
import Mathlib.Data.Nat.Notation

/-!
# The scalar interface

The C++ library is a template library over `typename Real`.
`Scalar R` lists every operation that the modelled code performs on a `Real`.
The class has no laws: theorems about all instances use nothing but the control flow.
-/

namespace DRT

/-- Operations used by the templates of `/repo/include/drt` on their parameter `Real`. -/
class Scalar (R : Type) extends Add R, Sub R, Mul R, Div R, Neg R where
  /-- Numeric literal, e.g. `Real(9)`, `0.00001`. -/
  lit : ℚ → R
  /-- `a < b` (false when an operand is NaN). -/
  lt : R → R → Bool
  /-- `a <= b` (false when an operand is NaN). -/
  le : R → R → Bool
  /-- `a == b` (false when an operand is NaN). -/
  eq : R → R → Bool
  /-- `std::isnan` -/
  isNaN : R → Bool
  /-- `std::numeric_limits<Real>::quiet_NaN()` -/
  nan : R
  /-- `std::numeric_limits<Real>::infinity()` -/
  inf : R
  /-- `std::numeric_limits<Real>::epsilon()` -/
  eps : R
  /-- `std::numeric_limits<Real>::min()` -/
  tiny : R
  /-- `std::numeric_limits<Real>::max()` -/
  big : R
  /-- `M_PI` -/
  pi : R
  /-- `std::abs` -/
  abs : R → R
  /-- `std::sqrt` -/
  sqrt : R → R
  /-- `std::cbrt` -/
  cbrt : R → R
  /-- `std::sin` -/
  sin : R → R
  /-- `std::cos` -/
  cos : R → R
  /-- `std::tan` -/
  tan : R → R
  /-- `std::acos` -/
  acos : R → R
  /-- `std::asin` -/
  asin : R → R
  /-- `std::exp` -/
  exp : R → R
  /-- `std::log` -/
  log : R → R
  /-- `std::atan2(y, x)` -/
  atan2 : R → R → R
  /-- `std::copysign(x, s)` -/
  copysign : R → R → R
  /-- `std::fma(x, y, z)` -/
  fma : R → R → R → R
  /-- `std::pow(x, p)` with an integer exponent -/
  powi : R → ℤ → R
  /-- `std::floor` -/
  floor : R → R
  /-- Conversion to an integer type (truncation toward zero).
  `none` is the undefined behaviour of converting NaN or an infinity. -/
  toInt : R → Option ℤ
  /-- `int64_t(std::round(x))`: to the nearest integer, halves away from zero; `none` as for `toInt`. -/
  llround : R → Option ℤ
  /-- `Real(ldexp(k, -32))` for a 32-bit unsigned `k`. -/
  ldexp32 : ℕ → R

namespace Scalar
variable {R : Type} [Scalar R]

scoped instance instOfNat (n : ℕ) : OfNat R n := ⟨Scalar.lit (n : ℚ)⟩

/-- `a > b` -/
def gt (a b : R) : Bool := lt b a
/-- `a >= b` -/
def ge (a b : R) : Bool := le b a
/-- `a != b` (true when an operand is NaN). -/
def ne (a b : R) : Bool := !(eq a b)

/-- `std::min(a,b)`: returns `b` if `b < a`, otherwise `a`. -/
def min (a b : R) : R := if lt b a then b else a
/-- `std::max(a,b)`: returns `b` if `a < b`, otherwise `a`. -/
def max (a b : R) : R := if lt a b then b else a
/-- `std::clamp(v, lo, hi)`. -/
def clamp (v lo hi : R) : R := if lt v lo then lo else if lt hi v then hi else v
/-- `std::fmin(a,b)`: NaN is treated as missing. -/
def fmin (a b : R) : R := if isNaN a then b else if isNaN b then a else if lt b a then b else a
/-- `std::fmax(a,b)`: NaN is treated as missing. -/
def fmax (a b : R) : R := if isNaN a then b else if isNaN b then a else if lt a b then b else a

/-- `for (i = 0; i < n; ++i) acc += f(i);` starting from `acc = 0`. -/
def loopSum (n : ℕ) (f : Fin n → R) : R := Fin.foldl n (fun acc i => acc + f i) 0

end Scalar
end DRT
