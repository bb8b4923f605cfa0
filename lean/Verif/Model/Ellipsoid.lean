import Verif.Model.Hittable

/-! # Model of `include/drt/ellipsoid.hpp` -/

namespace DRT
open Scalar Vec

variable {R : Type} [Scalar R]

/-- ellipsoid.hpp:109-110, the members of `ellipsoid<Real>`. The constructor (13-25) only prints a message for a
nonpositive scale; printing is not modelled. -/
structure Ellipsoid (R : Type) where
  /-- `center_` -/
  center : Vec R 3
  /-- `scales_` -/
  scales : Vec R 3

namespace Ellipsoid

/-- ellipsoid.hpp:33-47, `get_uv(p)`. -/
def getUV (s : Ellipsoid R) (p : Vec R 3) : R × R :=
  let x := (p 0 - s.center 0) / s.scales 0
  let y := (p 1 - s.center 1) / s.scales 1
  let z := (p 2 - s.center 2) / s.scales 2
  let v := acos z / pi
  let v := if lt v 0 then v + 1 else v
  let u := atan2 y x / (2 * pi)
  let u := if lt u 0 then u + 1 else u
  (u, v)

/-- ellipsoid.hpp:50-56, `operator()(u, v)`. -/
def eval (s : Ellipsoid R) (u v : R) : Vec R 3 :=
  ![s.center 0 + s.scales 0 * cos (2 * pi * u) * sin (pi * v),
    s.center 1 + s.scales 1 * sin (2 * pi * u) * sin (pi * v),
    s.center 2 + s.scales 2 * cos (pi * v)]

/-- ellipsoid.hpp:58-68, `gaussian_curvature(p)`. -/
def curvatureAt (s : Ellipsoid R) (p : Vec R 3) : R :=
  let asq := s.scales 0 * s.scales 0
  let bsq := s.scales 1 * s.scales 1
  let csq := s.scales 2 * s.scales 2
  let ysq := (p 1 - s.center 1) * (p 1 - s.center 1)
  let zsq := (p 2 - s.center 2) * (p 2 - s.center 2)
  let numerator := asq * bsq * bsq * bsq * csq * csq * csq
  let sqrtDenom := csq * csq * bsq * bsq + csq * csq * (asq - bsq) * ysq + bsq * bsq * (asq - csq) * zsq
  numerator / (sqrtDenom * sqrtDenom)

/-- ellipsoid.hpp:70-78, `gaussian_curvature_bounds()`; `std::min` of a list keeps the first of equal elements, as the
nested binary form does. -/
def curvatureBounds (s : Ellipsoid R) : R × R :=
  let asq := s.scales 0 * s.scales 0
  let bsq := s.scales 1 * s.scales 1
  let csq := s.scales 2 * s.scales 2
  (min (min (csq / (asq * bsq)) (asq / (csq * bsq))) (bsq / (asq * csq)),
    max (max (csq / (asq * bsq)) (asq / (csq * bsq))) (bsq / (asq * csq)))

/-- ellipsoid.hpp:85-107, `set_fundamental_forms(rec)`. -/
def setForms (s : Ellipsoid R) (rec : HitRecord R) : HitRecord R :=
  let a := s.scales 0
  let b := s.scales 1
  let c := s.scales 2
  let spv := sin (pi * rec.v)
  let cpv := cos (pi * rec.v)
  let stpu := sin (2 * pi * rec.u)
  let ctpu := cos (2 * pi * rec.u)
  let denom := sqrt (a * a * b * b * cpv * cpv + c * c * (b * b * ctpu * ctpu + a * a * stpu * stpu) * spv * spv)
  { rec with
    E := 4 * pi * pi * spv * spv * (a * a * stpu * stpu + b * b * ctpu * ctpu)
    F := 2 * pi * pi * ctpu * stpu * cpv * spv * (b * b - a * a)
    G := pi * pi * (a * a * cpv * cpv * ctpu * ctpu + b * b * stpu * stpu * cpv * cpv + c * c * spv * spv)
    e := 4 * pi * pi * a * b * c * spv * spv / denom
    f := 0
    g := pi * pi * a * b * c / denom }

/-- ellipsoid.hpp:133-136: the vector that is normalized to give the outward normal. -/
def gradient (s : Ellipsoid R) (p : Vec R 3) : Vec R 3 :=
  let n := p - s.center
  ![n 0 * (2 / (s.scales 0 * s.scales 0)), n 1 * (2 / (s.scales 1 * s.scales 1)), n 2 * (2 / (s.scales 2 * s.scales 2))]

/-- ellipsoid.hpp:114-143, `hit(r, t_min, t_max, rec)`. -/
def hit (s : Ellipsoid R) (r : Ray R) (tmin tmax : R) (rec : HitRecord R) : Bool × HitRecord R :=
  let oc0 := r.origin - s.center
  let oc : Vec R 3 := ![oc0 0 / s.scales 0, oc0 1 / s.scales 1, oc0 2 / s.scales 2]
  let sd : Vec R 3 := ![r.dir 0 / s.scales 0, r.dir 1 / s.scales 1, r.dir 2 / s.scales 2]
  let a := squaredNorm sd
  let b := 2 * dot oc sd
  let c := squaredNorm oc - 1
  match firstQuadraticRootInRange a b c tmin tmax with
  | none => (false, rec)
  | some t =>
    let rc := { rec with t := t, p := r.at t }
    let n := s.gradient rc.p
    let rc := { rc with gradMag := Vec.norm n }
    let n := n /. rc.gradMag
    let uv := s.getUV rc.p
    let rc := { rc with u := uv.1, v := uv.2 }
    let rc := s.setForms rc
    (true, rc.setFaceNormal r n)

/-- ellipsoid.hpp:146-149, `bounding_box`. -/
def bbox (s : Ellipsoid R) : Bool × AABB R := (true, ⟨s.center - s.scales, s.center + s.scales⟩)

/-- The ellipsoid as a member of a list or tree. -/
def toHittable (s : Ellipsoid R) : Hittable R := ⟨s.hit, s.bbox⟩

end Ellipsoid
end DRT
