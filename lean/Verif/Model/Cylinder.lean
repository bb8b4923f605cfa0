import Verif.Model.Hittable
import Verif.Model.Roots

/-! # Model of `include/drt/cylinder.hpp` -/

namespace DRT
open Scalar Vec

variable {R : Type} [Scalar R]

/-- cylinder.hpp:67-69, the members of `cylinder<Real>`. -/
structure Cylinder (R : Type) where
  /-- `radius_` -/
  radius : R
  /-- `z_min_` -/
  zmin : R
  /-- `z_max_` -/
  zmax : R

namespace Cylinder

/-- cylinder.hpp:26-28, `residual(p)`. -/
def residual (s : Cylinder R) (p : Vec R 3) : R := p 0 * p 0 + p 1 * p 1 - s.radius * s.radius

/-- cylinder.hpp:30-32, `expected_residual(p)`. -/
def expectedResidual (s : Cylinder R) (_ : Vec R 3) : R := 20 * eps * s.radius * s.radius

/-- cylinder.hpp:35-44, `get_uv(p)`. -/
def getUV (s : Cylinder R) (p : Vec R 3) : R × R :=
  let v := (p 2 - s.zmin) / (s.zmax - s.zmin)
  let v := clamp v 0 1
  let u := atan2 (p 1) (p 0) / (2 * pi)
  let u := if lt u 0 then u + 1 else u
  (u, v)

/-- cylinder.hpp:47-53, `operator()(u, v)`. -/
def eval (s : Cylinder R) (u v : R) : Vec R 3 :=
  ![s.radius * cos (2 * pi * u), s.radius * sin (2 * pi * u), s.zmin + v * (s.zmax - s.zmin)]

/-- cylinder.hpp:57-65, `set_fundamental_forms(rec)`. -/
def setForms (s : Cylinder R) (rec : HitRecord R) : HitRecord R :=
  { rec with
    E := 4 * pi * pi * s.radius * s.radius
    F := 0
    G := (s.zmax - s.zmin) * (s.zmax - s.zmin)
    e := 4 * pi * pi * s.radius
    f := 0
    g := 0 }

/-- cylinder.hpp:107-112: the rest of the record is computed from `rec.p` as it stands. -/
def complete (s : Cylinder R) (r : Ray R) (rec : HitRecord R) : HitRecord R :=
  let gradient : Vec R 3 := ![2 * rec.p 0, 2 * rec.p 1, 0]
  let rc := { rec with gradMag := Vec.norm gradient }
  let rc := rc.setFaceNormal r (gradient /. rc.gradMag)
  let uv := s.getUV rc.p
  s.setForms { rc with u := uv.1, v := uv.2 }

/-- cylinder.hpp:107-126, the end of `hit`. -/
def finish (s : Cylinder R) (r : Ray R) (rec : HitRecord R) : Bool × HitRecord R :=
  let rc := s.complete r rec
  if gt (Scalar.abs (s.residual rc.p)) (s.expectedResidual rc.p) then (false, rc) else (true, rc)

/-- cylinder.hpp:73-127, `hit(r, t_min, t_max, rec)`. In the branch at lines 84-88 only the local `t` is set, `rec.t` and
`rec.p` keep what they held. -/
def hit (s : Cylinder R) (r : Ray R) (tmin tmax : R) (rec : HitRecord R) : Bool × HitRecord R :=
  let o := r.origin
  let dir := r.dir
  let a := dir 0 * dir 0 + dir 1 * dir 1
  let b := 2 * (o 0 * dir 0 + o 1 * dir 1)
  let c := o 0 * o 0 + o 1 * o 1 - s.radius * s.radius
  match quadraticRoots a b c with
  | [r0, r1] =>
    if lt r0 tmin || gt r0 tmax then
      if lt r1 tmin || gt r1 tmax then (false, rec) else s.finish r rec
    else
      let rc := { rec with t := r0, p := r.at r0 }
      if gt (rc.p 2) s.zmax || lt (rc.p 2) s.zmin then
        let rc := { rc with t := r1 }
        if lt r1 tmin || gt r1 tmax then (false, rc)
        else
          let rc := { rc with p := r.at r1 }
          if gt (rc.p 2) s.zmax || lt (rc.p 2) s.zmin then (false, rc) else s.finish r rc
      else s.finish r rc
  | _ => (false, rec)

/-- cylinder.hpp:129-135, `bounding_box`. -/
def bbox (s : Cylinder R) : Bool × AABB R :=
  (true, ⟨![-s.radius, -s.radius, s.zmin], ![s.radius, s.radius, s.zmax]⟩)

/-- The cylinder as a member of a list or tree. -/
def toHittable (s : Cylinder R) : Hittable R := ⟨s.hit, s.bbox⟩

end Cylinder
end DRT
