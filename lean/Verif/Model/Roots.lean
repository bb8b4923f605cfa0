import Verif.Scalar.Basic

/-! # roots.hpp -/

namespace DRT
open Scalar

variable {R : Type} [Scalar R]

/-- roots.hpp:13-20, `discriminant(a,b,c)`. -/
def discriminant (a b c : R) : R :=
  let w := 4 * a * c
  let e := fma (-c) (4 * a) w
  let f := fma b b (-w)
  f + e

/-- Insertion into a sorted list, used by `sortAsc`. -/
def insertAsc (x : R) : List R → List R
  | [] => [x]
  | y :: ys => if lt y x then y :: insertAsc x ys else x :: y :: ys

/-- `std::sort(v.begin(), v.end())` (roots.hpp:125, 140, 189, 203, 257).
Simplification: the order produced by `std::sort` is unique up to equal elements when no element is NaN;
with NaNs the C++ result is unspecified, and no theorem below says anything about it. -/
def sortAsc : List R → List R
  | [] => []
  | x :: xs => insertAsc x (sortAsc xs)

/-- roots.hpp:24-87, `quadratic_roots(a,b,c)`. The list has length 0 or 2. -/
def quadraticRoots (a b c : R) : List R :=
  if le (Scalar.abs a) tiny then
    if eq b 0 && ne c 0 then
      if ne c 0 then [] else [0, 0]
    else [-c / b, -c / b]
  else if le (Scalar.abs b) tiny then
    let x0sq := -c / a
    if lt x0sq 0 then []
    else
      let x0 := Scalar.sqrt x0sq
      [-x0, x0]
  else
    let delta := discriminant a b c
    if lt delta 0 then []
    else
      let q := -(b + copysign (Scalar.sqrt delta) b) / 2
      let x0 := q / a
      let x1 := c / q
      if lt x0 x1 then [x0, x1] else [x1, x0]

/-- roots.hpp:90-103, `first_quadratic_root_in_range`. -/
def firstQuadraticRootInRange (a b c tmin tmax : R) : Option R :=
  match quadraticRoots a b c with
  | [r0, r1] =>
    if ge r0 tmin && le r0 tmax then some r0
    else if ge r1 tmin && le r1 tmax then some r1
    else none
  | _ => none

/-- roots.hpp:105-107, `sgn(val)`. -/
def sgn (x : R) : ℤ := (if lt 0 x then 1 else 0) - (if lt x 0 then 1 else 0)

/-- roots.hpp:112-153, `cubic_roots(a,b,c,d)`. -/
def cubicRoots (a b c d : R) : List R :=
  if le (Scalar.abs a) tiny then quadraticRoots b c d
  else if le (Scalar.abs d) tiny then sortAsc (quadraticRoots a b c ++ [0])
  else
    let p := b / a
    let q := c / a
    let r := d / a
    let Q := (p * p - 3 * q) / 9
    let R := (2 * p * p * p - 9 * p * q + 27 * r) / 54
    if lt (R * R) (Q * Q * Q) then
      let rtQ := Scalar.sqrt Q
      let theta := Scalar.acos (R / (Q * rtQ))
      sortAsc [(-2) * rtQ * Scalar.cos (theta / 3) - p / 3,
        (-2) * rtQ * Scalar.cos ((theta + 2 * pi) / 3) - p / 3,
        (-2) * rtQ * Scalar.cos ((theta - 2 * pi) / 3) - p / 3]
    else
      let arg := R * R - Q * Q * Q
      let A := lit (-(sgn R)) * Scalar.cbrt (Scalar.abs R + Scalar.sqrt arg)
      if le (Scalar.abs A) tiny then [A - p / 3] else [A + Q / A - p / 3]

/-- roots.hpp:241-254, one Halley step for a root of the quartic. -/
def quarticPolish (a b c d e r : R) : R :=
  let df := 4 * a * r + 3 * b
  let df := df * r + 2 * c
  let df := df * r + d
  let d2f := 12 * a * r + 6 * b
  let d2f := d2f * r + 2 * c
  let f := a * r + b
  let f := f * r + c
  let f := f * r + d
  let f := f * r + e
  let denom := 2 * df * df - f * d2f
  if gt (Scalar.abs denom) tiny then r - 2 * f * df / denom else r

/-- roots.hpp:159-259, `quartic_roots(a,b,c,d,e)`. `z_roots.back()` on lines 217 and 221 is applied to a list that is
never empty (the leading coefficient passed to `cubic_roots` is 1); the model uses 0 for an empty list. -/
def quarticRoots (a b c d e : R) : List R :=
  if le (Scalar.abs a) tiny then cubicRoots b c d e
  else if le (Scalar.abs e) tiny then cubicRoots a b c d ++ [0]
  else
    let A := b / a
    let B := c / a
    let C := d / a
    let D := e / a
    let Asq := A * A
    let p := B - 3 * Asq / 8
    let q := C - A * B / 2 + Asq * A / 8
    let r := D - A * C / 4 + Asq * B / 16 - 3 * Asq * Asq / 256
    if le (Scalar.abs r) tiny then
      sortAsc ((cubicRoots 1 0 p q ++ [0]).map (fun y => y - A / 4))
    else if le (Scalar.abs q) tiny then
      let w := quadraticRoots 1 p r
      sortAsc (w.flatMap fun r =>
        if ge r 0 then
          let rtr := Scalar.sqrt r
          [rtr - A / 4, -rtr - A / 4]
        else [])
    else
      let zRoots := cubicRoots 1 (2 * p) (p * p - 4 * r) (-q * q)
      let z := zRoots.getLastD 0
      if le z 0 then []
      else
        let s := Scalar.sqrt z
        let v := (p + s * s + q / s) / 2
        let u := v - q / s
        let roots := quadraticRoots 1 s u ++ quadraticRoots 1 (-s) v
        sortAsc ((roots.map (fun r => r - A / 4)).map (quarticPolish a b c d e))

/-- roots.hpp:279-283: the scanning loop of `bisect`. The loop need not terminate; `none` means that `fuel`
iterations were not enough. Returns `tmin` and `f_min` at loop exit. -/
def bisectScan (f : R → R) (dt tmax : R) : ℕ → R → R → R → Option (R × R)
  | 0, _, _, _ => none
  | fuel + 1, tmin, fmin, fmax =>
    if gt (fmin * fmax) 0 && lt tmin tmax then
      bisectScan f dt tmax fuel (tmin + dt) fmax (f (tmin + dt + dt))
    else some (tmin, fmin)

/-- roots.hpp:291-314: the refinement loop of `bisect`, at most `n` more iterations. -/
def bisectRefine (f : R → R) : ℕ → R → R → R → R × R
  | 0, tmin, tmax, _ => (tmin, tmax)
  | n + 1, tmin, tmax, fmin =>
    let mid := (tmin + tmax) / 2
    let fmid := f mid
    if eq mid tmax || eq mid tmin then (tmin, tmax)
    else if eq fmid 0 then (mid, mid)
    else if lt (fmin * fmin) 0 then bisectRefine f n tmin mid fmin
    else bisectRefine f n mid tmax fmid

/-- roots.hpp:262-316, `bisect(f, tmin, tmax)`. -/
def bisect (f : R → R) (fuel : ℕ) (tmin tmax : R) : Option (R × R) :=
  let fmin := f tmin
  if eq fmin 0 then some (tmin, tmin)
  else
    let dt := Scalar.min ((tmax - tmin) / 8) 1
    let dt := if lt dt (10 * eps * Scalar.abs tmin) then 10 * eps * Scalar.abs tmin else dt
    match bisectScan f dt tmax fuel tmin fmin (f (tmin + dt)) with
    | none => none
    | some (tmin, fmin) =>
      if ge tmin tmax then some (nan, nan)
      else some (bisectRefine f 40 tmin (tmin + dt) fmin)

end DRT
