import Verif.Scalar.Basic

/-!
# The model over Lean's `Float`

This instance makes the model executable in binary64. It is used by `Verif/Tests/UnitTests.lean` only; no theorem
mentions it. Lean has no fused multiply-add, so `fma` rounds twice here.
-/

namespace DRT

/-- Binary64 as the scalar type. -/
instance : Scalar Float where
  lit q := Float.ofInt q.num / Float.ofNat q.den
  lt a b := a < b
  le a b := a ≤ b
  eq a b := a == b
  isNaN a := a.isNaN
  nan := 0.0 / 0.0
  inf := 1.0 / 0.0
  eps := Float.ofScientific 2220446049250313 true 31
  tiny := Float.ofScientific 22250738585072014 true 324
  big := Float.ofScientific 17976931348623157 false 292
  pi := 3.141592653589793
  abs := Float.abs
  sqrt := Float.sqrt
  cbrt := Float.cbrt
  sin := Float.sin
  cos := Float.cos
  tan := Float.tan
  acos := Float.acos
  asin := Float.asin
  exp := Float.exp
  log := Float.log
  atan2 := Float.atan2
  copysign x s := if s < 0.0 || (s == 0.0 && 1.0 / s < 0.0) then -x.abs else x.abs
  fma x y z := x * y + z
  powi x p := Float.pow x (Float.ofInt p)
  floor := Float.floor
  toInt x := if x.isNaN || x.isInf then none else
    some (if x < 0.0 then -((-x).toUInt64.toNat : ℤ) else (x.toUInt64.toNat : ℤ))
  llround x := if x.isNaN || x.isInf then none else
    let y := x.round
    some (if y < 0.0 then -((-y).toUInt64.toNat : ℤ) else (y.toUInt64.toNat : ℤ))
  ldexp32 k := Float.ofNat k / 4294967296.0

end DRT
