import Verif.Model.Hittable
import Verif.Model.Roots

/-! # Model of `include/drt/torus.hpp` -/

namespace DRT
open Scalar Vec

variable {R : Type} [Scalar R]

/-- torus.hpp:195-197, the members of `torus<Real>`. The messages of the constructor at 19-24 are not modelled. -/
structure Torus (R : Type) where
  /-- `center_` -/
  center : Vec R 3
  /-- `R_` -/
  major : R
  /-- `r_` -/
  minor : R

namespace Torus

/-- torus.hpp:31-33, `area()`. -/
def area (s : Torus R) : R := 4 * pi * pi * s.major * s.minor

/-- torus.hpp:35-37, `volume()`. -/
def volume (s : Torus R) : R := 2 * pi * pi * s.major * s.minor * s.minor

/-- torus.hpp:40-44 and again 254-258: the gradient of the implicit function at `p`. -/
def gradient (s : Torus R) (p : Vec R 3) : Vec R 3 :=
  let x := p 0 - s.center 0
  let y := p 1 - s.center 1
  let z := p 2 - s.center 2
  let q := x * x + y * y + z * z - s.minor * s.minor
  ![4 * x * (q - s.major * s.major), 4 * y * (q - s.major * s.major), 4 * z * (q + s.major * s.major)]

/-- torus.hpp:39-47, `normal(p)`. -/
def normal (s : Torus R) (p : Vec R 3) : Vec R 3 := Vec.normalize (s.gradient p)

/-- torus.hpp:49-74, `gaussian_curvature(p)`. -/
def gaussianCurvature (s : Torus R) (p : Vec R 3) : R :=
  let zr := (p 2 - s.center 2) / s.minor
  let arg := clamp (1 - zr * zr) 0 1
  let cosv := Scalar.sqrt arg
  let x := p 0 - s.center 0
  let y := p 1 - s.center 1
  let cosv := if lt (x * x + y * y) (s.major * s.major + s.minor * s.minor * cosv * cosv) then -cosv else cosv
  let denom := s.minor * (s.major + s.minor * cosv)
  cosv / denom

/-- torus.hpp:76-78, `gaussian_curvature_bounds()`. -/
def curvatureBounds (s : Torus R) : R × R :=
  (-1 / (s.minor * (s.major - s.minor)), 1 / (s.minor * (s.major + s.minor)))

/-- torus.hpp:83-90, `residual(p)`. -/
def residual (s : Torus R) (p : Vec R 3) : R :=
  let x := p 0 - s.center 0
  let y := p 1 - s.center 1
  let z := p 2 - s.center 2
  let tmp := x * x + y * y + z * z + s.major * s.major - s.minor * s.minor
  tmp * tmp - 4 * s.major * s.major * (x * x + y * y)

/-- torus.hpp:94-108, `expected_residual(p)`. -/
def expectedResidual (s : Torus R) (p : Vec R 3) : R :=
  let x := p 0 - s.center 0
  let y := p 1 - s.center 1
  let z := p 2 - s.center 2
  let lsq := x * x + y * y + z * z
  let dfdx := 4 * x * (lsq - s.major * s.major - s.minor * s.minor)
  let dfdy := 4 * y * (lsq - s.major * s.major - s.minor * s.minor)
  let dfdz := 4 * z * (lsq + s.major * s.major - s.minor * s.minor)
  let residual := Scalar.abs (x * dfdx) + Scalar.abs (y * dfdy) + Scalar.abs (z * dfdz)
  residual * (20 * eps)

/-- torus.hpp:113-139, `get_uv(p)`. -/
def getUV (s : Torus R) (p : Vec R 3) : R × R :=
  let x := p 0 - s.center 0
  let y := p 1 - s.center 1
  let z := p 2 - s.center 2
  let u := atan2 y x / (2 * pi)
  let u := if lt u 0 then u + 1 else u
  let v := asin (z / s.minor)
  let v := if lt (x * x + y * y) (s.major * s.major) then pi - v else v
  let v := if lt v 0 then v + 2 * pi else v
  (u, v / (2 * pi))

/-- torus.hpp:144-150, `operator()(u, v)`. -/
def eval (s : Torus R) (u v : R) : Vec R 3 :=
  ![s.center 0 + (s.major + s.minor * cos (2 * pi * v)) * cos (2 * pi * u),
    s.center 1 + (s.major + s.minor * cos (2 * pi * v)) * sin (2 * pi * u),
    s.center 2 + s.minor * sin (2 * pi * v)]

/-- torus.hpp:155-173, the Newton step of `refine_hit_point`. -/
def newtonStep (s : Torus R) (p dir : Vec R 3) : Vec R 3 :=
  let x := p 0 - s.center 0
  let y := p 1 - s.center 1
  let z := p 2 - s.center 2
  let lsq := x * x + y * y + z * z
  let tmp := lsq + s.major * s.major - s.minor * s.minor
  let fp := tmp * tmp - 4 * s.major * s.major * (x * x + y * y)
  let nablaf : Vec R 3 := ![4 * x * (lsq - s.major * s.major - s.minor * s.minor),
    4 * y * (lsq - s.major * s.major - s.minor * s.minor), 4 * z * (lsq + s.major * s.major - s.minor * s.minor)]
  let nablafdd := dot nablaf dir
  if ne nablafdd 0 then
    let dt := -fp / nablafdd
    ![p 0 + dt * dir 0, p 1 + dt * dir 1, p 2 + dt * dir 2]
  else p

/-- torus.hpp:175-177, the clamping at the end of `refine_hit_point`. -/
def clampToBox (s : Torus R) (p : Vec R 3) : Vec R 3 :=
  ![clamp (p 0) (s.center 0 - (s.major + s.minor)) (s.center 0 + (s.major + s.minor)),
    clamp (p 1) (s.center 1 - (s.major + s.minor)) (s.center 1 + (s.major + s.minor)),
    clamp (p 2) (s.center 2 - s.minor) (s.center 2 + s.minor)]

/-- torus.hpp:155-178, `refine_hit_point(p, direction)`. -/
def refine (s : Torus R) (p dir : Vec R 3) : Vec R 3 := s.clampToBox (s.newtonStep p dir)

/-- torus.hpp:184-194, `set_fundamental_forms(rec)`. -/
def setForms (s : Torus R) (rec : HitRecord R) : HitRecord R :=
  let tmp := s.major + s.minor * cos (2 * pi * rec.v)
  { rec with
    E := 4 * pi * pi * tmp * tmp
    F := 0
    G := 4 * pi * pi * s.minor * s.minor
    e := -4 * pi * pi * tmp * cos (2 * pi * rec.v)
    f := 0
    g := -4 * pi * pi * s.minor }

/-- torus.hpp:203-219: the coefficients `c[0], …, c[4]` of the quartic along the ray. -/
def coeffs (s : Torus R) (r : Ray R) : Vec R 5 :=
  let oc := r.origin - s.center
  let nsq := oc 0 * oc 0 + oc 1 * oc 1 + oc 2 * oc 2
  let tmp := nsq - (s.minor * s.minor + s.major * s.major)
  let d := r.dir
  let dsq := d 0 * d 0 + d 1 * d 1 + d 2 * d 2
  let ocd := dot oc d
  ![tmp * tmp - 4 * s.major * s.major * (s.minor * s.minor - oc 2 * oc 2),
    4 * tmp * ocd + 8 * s.major * s.major * oc 2 * d 2,
    2 * dsq * tmp + 4 * ocd * ocd + 4 * s.major * s.major * d 2 * d 2,
    4 * dsq * ocd,
    dsq * dsq]

/-- torus.hpp:223-230: whether one of `c[3], …, c[0]` is negative. -/
def signChanges (c : Vec R 5) : Bool := lt (c 3) 0 || lt (c 2) 0 || lt (c 1) 0 || lt (c 0) 0

/-- torus.hpp:248-263: the record once the parameter is chosen. -/
def complete (s : Torus R) (r : Ray R) (rec : HitRecord R) : HitRecord R :=
  let p := s.refine (r.at rec.t) r.dir
  let n := s.gradient p
  let rc := { rec with p := p, gradMag := Vec.norm n }
  let rc := rc.setFaceNormal r (n /. Vec.norm n)
  let uv := s.getUV p
  s.setForms { rc with u := uv.1, v := uv.2 }

/-- torus.hpp:248-283, the end of `hit`. The messages under `#ifdef DEBUG` are not modelled. -/
def finish (s : Torus R) (r : Ray R) (rec : HitRecord R) : Bool × HitRecord R :=
  let rc := s.complete r rec
  if gt (Scalar.abs (s.residual rc.p)) (s.expectedResidual rc.p) then (false, rc) else (true, rc)

/-- torus.hpp:201-284, `hit(r, t_min, t_max, rec)`. The test `isnan(rec.t)` at 244 succeeds exactly when the loop at
238-243 finds no root, because a root that passes `root >= t_min` is not a NaN. -/
def hit (s : Torus R) (r : Ray R) (tmin tmax : R) (rec : HitRecord R) : Bool × HitRecord R :=
  let c := s.coeffs r
  if !signChanges c then (false, rec)
  else
    match (quarticRoots (c 4) (c 3) (c 2) (c 1) (c 0)).find? (fun x => ge x tmin && le x tmax) with
    | none => (false, { rec with t := nan })
    | some t => s.finish r { rec with t := t }

/-- torus.hpp:287-291, `bounding_box`. -/
def bbox (s : Torus R) : Bool × AABB R :=
  let shift : Vec R 3 := ![s.major + s.minor, s.major + s.minor, s.minor]
  (true, ⟨s.center - shift, s.center + shift⟩)

/-- The torus as a member of a list or tree. -/
def toHittable (s : Torus R) : Hittable R := ⟨s.hit, s.bbox⟩

end Torus
end DRT
