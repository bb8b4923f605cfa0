import Verif.Model.Hittable
import Verif.Model.Matrix

/-! # Model of `include/drt/disk.hpp` -/

namespace DRT
open Scalar Vec

variable {R : Type} [Scalar R]

/-- disk.hpp:90-94, the members of `disk<Real>`. -/
structure Disk (R : Type) where
  /-- `radius_` -/
  radius : R
  /-- `center_` -/
  center : Vec R 3
  /-- `normal_` -/
  normal : Vec R 3
  /-- `to_world_` -/
  toWorld : Mat R 3 3
  /-- `to_local_` -/
  toLocal : Mat R 3 3

namespace Disk

/-- disk.hpp:28-44, both matrices when `nz == -1`. -/
def flip : Mat R 3 3 := ![![-1, 0, 0], ![0, 1, 0], ![0, 0, -1]]

/-- disk.hpp:45-57, `to_world_` when `nz != -1`. -/
def rotation (n : Vec R 3) : Mat R 3 3 :=
  let nx := n 0
  let ny := n 1
  let nz := n 2
  let t := 1 / (1 + nz)
  ![![nz + ny * ny * t, -nx * ny * t, nx],
    ![-nx * ny * t, nz + t * nx * nx, ny],
    ![-nx, -ny, nz]]

/-- disk.hpp:15-71, the constructor. The checks at 18-24, 59-64 and 66-70 only print. `none` means that `inverse` failed,
so that `to_local_` has indeterminate entries. -/
def make (radius : R) (center normal : Vec R 3) : Option (Disk R) :=
  if eq (normal 2) (-1) then some ⟨radius, center, normal, flip, flip⟩
  else (Mat.inverseVal3 (rotation normal)).map fun inv => ⟨radius, center, normal, rotation normal, inv⟩

/-- disk.hpp:81-87, `operator()(u, v)`. -/
def eval (s : Disk R) (u v : R) : Vec R 3 :=
  Mat.mulVec s.toWorld ![s.radius * v * cos (2 * pi * u), s.radius * v * sin (2 * pi * u), 0] + s.center

/-- disk.hpp:119-137, what `hit` writes for a crossing at parameter `t` with local coordinates `x`, `y`. -/
def record (s : Disk R) (r : Ray R) (t x y : R) (rec : HitRecord R) : HitRecord R :=
  let ssq := x * x + y * y
  let v := sqrt ssq / s.radius
  let u := if eq v 0 then 0 else (let u := atan2 y x / (2 * pi); if lt u 0 then u + 1 else u)
  let rc := { rec with t := t, p := r.at t, u := u, v := v }
  let rc := rc.setFaceNormal r s.normal
  { rc with E := 4 * pi * pi * s.radius * s.radius * v * v, F := 0, G := s.radius * s.radius, e := nan, f := nan, g := 0 }

/-- disk.hpp:98-140, `hit(r, t_min, t_max, rec)`. -/
def hit (s : Disk R) (r : Ray R) (tmin tmax : R) (rec : HitRecord R) : Bool × HitRecord R :=
  let o := Mat.mulVec s.toLocal (r.origin - s.center)
  let d := Mat.mulVec s.toLocal r.dir
  if eq (d 2) 0 then (false, rec)
  else
    let t := -(o 2) / d 2
    if lt t tmin || gt t tmax then (false, rec)
    else
      let x := o 0 + t * d 0
      let y := o 1 + t * d 1
      let ssq := x * x + y * y
      if gt ssq (s.radius * s.radius) then (false, rec)
      else (true, s.record r t x y rec)

/-- disk.hpp:142-148, `bounding_box`. -/
def bbox (s : Disk R) : Bool × AABB R :=
  (true, ⟨![-s.radius, -s.radius, s.center 2], ![s.radius, s.radius, s.center 2]⟩)

/-- The disk as a member of a list or tree. -/
def toHittable (s : Disk R) : Hittable R := ⟨s.hit, s.bbox⟩

end Disk
end DRT
