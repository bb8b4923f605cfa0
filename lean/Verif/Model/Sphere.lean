import Verif.Model.Hittable
import Verif.Model.Matrix

/-! # Model of `include/drt/sphere.hpp` -/

namespace DRT
open Scalar Vec

variable {R : Type} [Scalar R]

/-- sphere.hpp:141-142, the members of `sphere<Real>`. -/
structure Sphere (R : Type) where
  /-- `center_` -/
  center : Vec R 3
  /-- `radius_` -/
  radius : R

namespace Sphere

/-- sphere.hpp:25-39, `get_uv(p)`. -/
def getUV (s : Sphere R) (p : Vec R 3) : R × R :=
  let x := (p 0 - s.center 0) / s.radius
  let y := (p 1 - s.center 1) / s.radius
  let z := (p 2 - s.center 2) / s.radius
  let v := acos z / pi
  let v := if lt v 0 then v + 1 else v
  let u := atan2 y x / (2 * pi)
  let u := if lt u 0 then u + 1 else u
  (u, v)

/-- sphere.hpp:41-43, `area()`. -/
def area (s : Sphere R) : R := 4 * pi * s.radius * s.radius

/-- sphere.hpp:45-47, `volume()`. -/
def volume (s : Sphere R) : R := 4 * pi * s.radius * s.radius * s.radius / 3

/-- sphere.hpp:50-56, `operator()(u, v)`; also the value returned by the overloads at 58-122, whose first lines are
the same. -/
def eval (s : Sphere R) (u v : R) : Vec R 3 :=
  ![s.center 0 + s.radius * cos (2 * pi * u) * sin (pi * v),
    s.center 1 + s.radius * sin (2 * pi * u) * sin (pi * v),
    s.center 2 + s.radius * cos (pi * v)]

/-- sphere.hpp:63-76 and 86-99: the matrix `J` written by the overloads of `operator()`. -/
def jac (s : Sphere R) (u v : R) : Mat R 3 3 :=
  ![![-2 * pi * s.radius * sin (2 * pi * u) * sin (pi * v), pi * s.radius * cos (2 * pi * u) * cos (pi * v), nan],
    ![2 * pi * s.radius * cos (2 * pi * u) * sin (pi * v), pi * s.radius * sin (2 * pi * u) * cos (pi * v), nan],
    ![0, -pi * s.radius * sin (pi * v), nan]]

/-- sphere.hpp:101-120: the tensor `H` written by `operator()(u, v, J, H)`. -/
def hess (s : Sphere R) (u v : R) : Fin 3 → Fin 2 → Fin 2 → R :=
  ![![![-4 * pi * pi * s.radius * cos (2 * pi * u) * sin (pi * v), -2 * pi * pi * s.radius * sin (2 * pi * u) * cos (pi * v)],
      ![-2 * pi * pi * s.radius * sin (2 * pi * u) * cos (pi * v), -pi * pi * s.radius * cos (2 * pi * u) * sin (pi * v)]],
    ![![-4 * pi * pi * s.radius * sin (2 * pi * u) * sin (pi * v), 2 * pi * pi * s.radius * cos (2 * pi * u) * cos (pi * v)],
      ![2 * pi * pi * s.radius * cos (2 * pi * u) * cos (pi * v), -pi * pi * s.radius * sin (2 * pi * u) * sin (pi * v)]],
    ![![0, 0],
      ![0, -pi * pi * s.radius * cos (pi * v)]]]

/-- sphere.hpp:126-139, `set_fundamental_forms(rec)`. -/
def setForms (s : Sphere R) (rec : HitRecord R) : HitRecord R :=
  let dsigmadu := 2 * pi * s.radius * sin (pi * rec.v)
  let E := dsigmadu * dsigmadu
  { rec with E := E, F := 0, G := pi * pi * s.radius * s.radius, e := E / s.radius, f := 0, g := pi * pi * s.radius }

/-- sphere.hpp:145-163, `hit(r, t_min, t_max, rec)`. -/
def hit (s : Sphere R) (r : Ray R) (tmin tmax : R) (rec : HitRecord R) : Bool × HitRecord R :=
  let oc := r.origin - s.center
  let a := squaredNorm r.dir
  let b := 2 * dot oc r.dir
  let c := squaredNorm oc - s.radius * s.radius
  match firstQuadraticRootInRange a b c tmin tmax with
  | none => (false, rec)
  | some t =>
    let rc := { rec with t := t, p := r.at t }
    let n := (rc.p - s.center) /. s.radius
    let rc := rc.setFaceNormal r n
    let uv := s.getUV rc.p
    let rc := { rc with u := uv.1, v := uv.2, gradMag := 2 * s.radius }
    (true, s.setForms rc)

/-- sphere.hpp:165-171, `bounding_box`. -/
def bbox (s : Sphere R) : Bool × AABB R :=
  (true, ⟨s.center - ![s.radius, s.radius, s.radius], s.center + ![s.radius, s.radius, s.radius]⟩)

/-- The sphere as a member of a list or tree. -/
def toHittable (s : Sphere R) : Hittable R := ⟨s.hit, s.bbox⟩

end Sphere
end DRT
