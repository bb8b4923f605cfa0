import Verif.Model.Hittable
import Verif.Model.Newton

/-! # Model of `include/drt/helicoid.hpp` -/

namespace DRT
open Scalar Vec

variable {R : Type} [Scalar R]

/-- helicoid.hpp:399-400, the members of `helicoid<Real>`. The messages of the constructor at 28-37, the counters at
16-20 and the messages under `#ifdef DEBUG` are not modelled. -/
structure Helicoid (R : Type) where
  /-- `radius_` -/
  radius : R
  /-- `speed_` -/
  speed : R

namespace Helicoid

/-- helicoid.hpp:51-57, `operator()(u, v)`; also the vector returned by the overload at 59-96 and by `derivatives`
at 98-153. -/
def eval (s : Helicoid R) (u v : R) : Vec R 3 :=
  ![s.radius * v * cos (2 * pi * u), s.radius * v * sin (2 * pi * u), s.speed * (u - lit (1 / 2))]

/-- helicoid.hpp:65-75 and 112-122, the matrix filled by `operator()(u, v, J, H)` and by `derivatives`. -/
def jac (s : Helicoid R) (u v : R) : Mat R 3 3 :=
  let w := s.eval u v
  ![![-2 * pi * w 1, s.radius * cos (2 * pi * u), nan],
    ![2 * pi * w 0, s.radius * sin (2 * pi * u), nan],
    ![s.speed, 0, nan]]

/-- helicoid.hpp:77-93 and 127-143, the tensor filled by `operator()(u, v, J, H)` and by `derivatives<2>`, assignment
by assignment. -/
def hess (s : Helicoid R) (H : Tensor R 3 2 2) (u v : R) : Tensor R 3 2 2 :=
  let w := s.eval u v
  ((((((((((((H.set 0 0 0 (-4 * pi * pi * w 0)).set 0 0 1 (-2 * pi * sin (2 * pi * u))).set 0 1 0
    (-2 * pi * sin (2 * pi * u))).set 0 1 1 0).set 1 0 0 (-4 * pi * pi * w 1)).set 1 0 1 (2 * pi * cos (2 * pi * u))).set
    1 1 0 (2 * pi * cos (2 * pi * u))).set 1 1 1 0).set 2 0 0 0).set 2 0 1 0).set 2 1 0 0).set 2 1 1 0)

/-- helicoid.hpp:155-160, `gaussian_curvature_bounds()`. -/
def curvatureBounds (s : Helicoid R) : R × R :=
  let den := s.speed * s.speed + 4 * pi * pi * s.radius * s.radius
  (-1 / (s.speed * s.speed), -s.speed * s.speed / (den * den))

/-- helicoid.hpp:168 and 190, the test for an origin inside the enclosing cylinder. -/
def inCylinder (s : Helicoid R) (o : Vec R 3) : Bool :=
  lt (o 0 * o 0 + o 1 * o 1) (s.radius * s.radius) && lt (o 2) (s.speed / 2) && gt (o 2) (-s.speed / 2)

/-- helicoid.hpp:165-183, `ubounds(o, d, t_min, t_max)`, which nothing calls. -/
def ubounds (s : Helicoid R) (o d : Vec R 3) (tmin tmax : R) : R × R :=
  if s.inCylinder o then (0, 1)
  else
    let a := (o 2 + tmin * d 2) / s.speed + 1 / 2
    let b := (o 2 + tmax * d 2) / s.speed + 1 / 2
    let ab := if gt a b then (b, a) else (a, b)
    let umin := Scalar.max 0 ab.1
    let umax := Scalar.min 1 ab.2
    if gt umin 1 || lt umax 0 then (nan, nan) else (umin, umax)

/-- helicoid.hpp:199-204 and 221-229, the distance from the axis at parameter `t`, divided by the radius. -/
def axisDist (s : Helicoid R) (o d : Vec R 3) (t : R) : R :=
  let x := o 0 + t * d 0
  let y := o 1 + t * d 1
  Scalar.sqrt (x * x + y * y) / s.radius

/-- helicoid.hpp:186-234, `vbounds(o, d, tmin, tmax)`. The values computed at 203-217 when the critical point is
outside are dropped unless both ends are out of `[0, 1]`. -/
def vbounds (s : Helicoid R) (o d : Vec R 3) (tmin tmax : R) : R × R :=
  if s.inCylinder o then (0, 1)
  else
    let tc := -(o 0 * d 0 + o 1 * d 1) / (d 0 * d 0 + d 1 * d 1)
    let a := s.axisDist o d tmin
    let b := s.axisDist o d tmax
    let ab := if gt a b then (b, a) else (a, b)
    let vmin := if lt ab.1 0 then 0 else ab.1
    let vmax := if gt ab.2 1 then 1 else ab.2
    if (lt tc tmin || gt tc tmax) && (gt vmin 1 || lt vmax 0) then (nan, nan)
    else if lt a b then (s.axisDist o d tc, a)
    else (s.axisDist o d tc, b)

/-- helicoid.hpp:247-295: the case of a ray orthogonal to the axis, up to line 287: `none` is `return w` with NaNs,
otherwise `(t, u, v)` before the range test. -/
def levelTUV (s : Helicoid R) (o d : Vec R 3) (tmin : R) : Option (R × R × R) :=
  let u := o 2 / s.speed + 1 / 2
  if lt u 0 || gt u 1 then none
  else
    let tant := tan (2 * pi * o 2 / s.speed)
    if le (Scalar.abs tant) tiny then
      if le (Scalar.abs (d 1)) tiny then
        if gt (Scalar.abs (o 1)) tiny then none
        else
          let t0 := -(o 0) / d 0
          let t1 := -(o 0 + 1) / d 0
          if lt t0 t1 && ge t0 tmin then some (t0, u, 0) else some (t1, u, 1)
      else
        let t := -(o 1) / d 1
        some (t, u, (o 0 + t * d 0) / (s.radius * cos (2 * pi * u)))
    else
      let t := (o 0 * tant - o 1) / (d 1 - d 0 * tant)
      some (t, u, s.axisDist o d t)

/-- helicoid.hpp:298-330: the case of a ray parallel to the axis: `none` is `return w` with NaNs, otherwise
`(t, u, v)`. -/
def axialTUV (s : Helicoid R) (o d : Vec R 3) : Option (R × R × R) :=
  let v := Scalar.sqrt (o 0 * o 0 + o 1 * o 1) / s.radius
  if gt v 1 then none
  else if lt v tiny then
    if gt (d 2) 0 then some ((-s.speed / 2 - o 2) / d 2, 0, v) else some ((s.speed / 2 - o 2) / d 2, 1, v)
  else
    let rv := s.radius * v
    let u := atan2 (o 1 / rv) (o 0 / rv) / (2 * pi)
    let u := if lt u 0 then u + 1 else u
    some ((s.speed * (u - lit (1 / 2)) - o 2) / d 2, u, v)

/-- helicoid.hpp:334-354, the function whose zero is sought, with its Jacobian, in the variables `(t, v)`. -/
def objective (s : Helicoid R) (o d : Vec R 3) (w : Vec R 2) : Vec R 2 × Mat R 2 2 :=
  let k := 2 * pi / s.speed
  let z := o 2 + w 0 * d 2
  let rc := s.radius * cos (k * z)
  let rs := s.radius * sin (k * z)
  (![o 0 + w 0 * d 0 + w 1 * rc, o 1 + w 0 * d 1 + w 1 * rs],
    ![![d 0 - k * d 2 * (w 1 * rs), rc], ![d 1 + k * d 2 * (w 1 * rc), rs]])

/-- The triple stored at 289-292, 324-326 and 391-393: `u` and `v` are clamped to `[0, 1]`. -/
def clampTUV (w : R × R × R) : R × R × R := (w.1, clamp w.2.1 0 1, clamp w.2.2 0 1)

/-- helicoid.hpp:236-397, `compute_tuv(o, d, t_min, t_max)`; the triple is `(t, u, v)`. `none` is a failed assertion
inside Newton's method. -/
def computeTUV (s : Helicoid R) (o d : Vec R 3) (tmin tmax : R) : Option (R × R × R) :=
  if le (Scalar.abs (d 2)) tiny then
    match s.levelTUV o d tmin with
    | none => some (nan, nan, nan)
    | some w => if ge w.1 tmin && le w.1 tmax then some (clampTUV w) else some (nan, nan, nan)
  else if le (d 0 * d 0 + d 1 * d 1) tiny then
    match s.axialTUV o d with
    | none => some (nan, nan, nan)
    | some w => some (clampTUV w)
  else do
    let vb := s.vbounds o d tmin tmax
    let b ← Bounds.init ![(tmin, tmax), vb]
    let sol ← newton2 (s.objective o d) b ![tmin, vb.2 * (1 - 1000 * eps)] 16
    return clampTUV (sol.x 0, (o 2 + sol.x 0 * d 2) / s.speed + lit (1 / 2), sol.x 1)

/-- helicoid.hpp:436-441, the record after the parameters are stored. -/
def place (w : R × R × R) (rec : HitRecord R) : HitRecord R := { rec with t := w.1, u := w.2.1, v := w.2.2 }

/-- helicoid.hpp:443-460: the point, the normal and the fundamental forms. `d2sigmadu2` is not used. -/
def forms (s : Helicoid R) (r : Ray R) (rec : HitRecord R) : HitRecord R :=
  let c := cos (2 * pi * rec.u)
  let sn := sin (2 * pi * rec.u)
  let du : Vec R 3 := ![-2 * pi * s.radius * rec.v * sn, 2 * pi * s.radius * rec.v * c, s.speed]
  let dv : Vec R 3 := ![s.radius * c, s.radius * sn, 0]
  let duv : Vec R 3 := ![-2 * pi * s.radius * sn, 2 * pi * s.radius * c, 0]
  let gradient := cross du dv
  let n := gradient /. Vec.norm gradient
  let rc := { rec with p := r.at rec.t, gradMag := Vec.norm gradient, e := 0, f := dot duv n, g := 0, E := dot du du,
                       F := 0, G := 4 * pi * pi * s.radius * s.radius }
  rc.setFaceNormal r n

/-- helicoid.hpp:461-464: `derivatives<1>` with the last column filled in. -/
def fullJac (s : Helicoid R) (r : Ray R) (u v : R) : Mat R 3 3 :=
  let J := s.jac u v
  ![![J 0 0, J 0 1, -(r.dir 0)], ![J 1 0, J 1 1, -(r.dir 1)], ![J 2 0, J 2 1, -(r.dir 2)]]

/-- helicoid.hpp:466-474: the expected residual. -/
def expectedRes (s : Helicoid R) (r : Ray R) (rec : HitRecord R) : R :=
  let J := s.fullJac r rec.u rec.v
  let row (i : Fin 3) := Scalar.abs (rec.t * J i 2) + Scalar.abs (J i 0 * rec.u) + Scalar.abs (J i 1 * rec.v)
  Scalar.max (Scalar.max (row 0) (row 1)) (row 2) * eps

/-- helicoid.hpp:470-471: the condition number. If the matrix is singular, `inverse` returns a matrix with
indeterminate entries; `junk` is the value of its norm. -/
def condition (s : Helicoid R) (r : Ray R) (rec : HitRecord R) (junk : R) : R :=
  (match Mat.inverseVal3 (s.fullJac r rec.u rec.v) with
    | some M => Mat.maxNorm ![M 0 0, M 0 1, M 0 2, M 1 0, M 1 1, M 1 2, M 2 0, M 2 1, M 2 2]
    | none => junk) / Scalar.max (Scalar.max rec.u rec.v) rec.t

/-- helicoid.hpp:436-491: the end of `hit` for the solver's answer `w`. -/
def finish (s : Helicoid R) (r : Ray R) (w : R × R × R) (junk : R) (rec : HitRecord R) : Bool × HitRecord R :=
  let rc := place w rec
  if isNaN rc.t then (false, rc)
  else
    let rc := s.forms r rc
    let rc := { rc with cond := s.condition r rc junk }
    if gt (maxNorm (rc.p - s.eval rc.u rc.v)) (10 * s.expectedRes r rc) then (false, rc) else (true, rc)

/-- helicoid.hpp:408-434: clipping the range to the enclosing cylinder; `none` is `return false`. -/
def clip (s : Helicoid R) (r : Ray R) (tmin tmax : R) : Option (R × R) :=
  let o := r.origin
  let d := r.dir
  let a := d 0 * d 0 + d 1 * d 1
  if gt a tiny then
    let b := 2 * (o 0 * d 0 + o 1 * d 1)
    let c := o 0 * o 0 + o 1 * o 1 - s.radius * s.radius
    match quadraticRoots a b c with
    | [r0, r1] =>
      if lt r1 tmin then none
      else
        let tmin := Scalar.max tmin r0
        let tmax := Scalar.min tmax r1
        let z1 := (r.at tmax) 2
        let z2 := (r.at tmin) 2
        if gt (Scalar.min z1 z2) (s.speed / 2) then none
        else if lt (Scalar.max z1 z2) (-s.speed / 2) then none
        else some (tmin, tmax)
    | _ => none
  else some (tmin, tmax)

/-- helicoid.hpp:403-492, `hit(r, t_min, t_max, rec)`. `none` is a failed assertion. `junk` stands for an indeterminate
value that reaches only `rec.condition_number`. -/
def hit (s : Helicoid R) (junk : R) (r : Ray R) (tmin tmax : R) (rec : HitRecord R) : Option (Bool × HitRecord R) :=
  match s.clip r tmin tmax with
  | none => some (false, rec)
  | some (a, b) => (s.computeTUV r.origin r.dir a b).map fun w => s.finish r w junk rec

/-- helicoid.hpp:494-500, `bounding_box`. -/
def bbox (s : Helicoid R) : Bool × AABB R :=
  (true, ⟨![-s.radius, -s.radius, -s.speed / 2], ![s.radius, s.radius, s.speed / 2]⟩)

end Helicoid
end DRT
