import Verif.Model.Hittable

/-! # Model of `include/drt/aarect.hpp` -/

namespace DRT
open Scalar Vec

variable {R : Type} [Scalar R]

/-- aarect.hpp:37, 66, 94, the members of `xy_rect`, `xz_rect` and `yz_rect`: two ranges and the position of the plane. -/
structure Rect (R : Type) where
  /-- `x0_`, `x0_`, `y0_` -/
  a0 : R
  /-- `x1_`, `x1_`, `y1_` -/
  a1 : R
  /-- `y0_`, `z0_`, `z0_` -/
  b0 : R
  /-- `y1_`, `z1_`, `z1_` -/
  b1 : R
  /-- `k_` -/
  k : R

namespace Rect

/-- The common body of the three `hit` functions, aarect.hpp:99-151, which differ only in the coordinates `i`, `j` of
the rectangle, the coordinate `n` across it and the normal. -/
def hitPlane (i j n : Fin 3) (normal : Vec R 3) (s : Rect R) (r : Ray R) (tmin tmax : R) (rec : HitRecord R) :
    Bool × HitRecord R :=
  let t := (s.k - r.origin n) / r.dir n
  if lt t tmin || gt t tmax then (false, rec)
  else
    let x := r.origin i + t * r.dir i
    let y := r.origin j + t * r.dir j
    if lt x s.a0 || gt x s.a1 || lt y s.b0 || gt y s.b1 then (false, rec)
    else
      let rc := { rec with u := (x - s.a0) / (s.a1 - s.a0), v := (y - s.b0) / (s.b1 - s.b0), t := t }
      let rc := rc.setFaceNormal r normal
      (true, { rc with p := r.at t })

/-- aarect.hpp:98-115, `xy_rect::hit`. -/
def hitXY : Rect R → Ray R → R → R → HitRecord R → Bool × HitRecord R := hitPlane 0 1 2 ![0, 0, 1]
/-- aarect.hpp:117-133, `xz_rect::hit`. -/
def hitXZ : Rect R → Ray R → R → R → HitRecord R → Bool × HitRecord R := hitPlane 0 2 1 ![0, 1, 0]
/-- aarect.hpp:135-151, `yz_rect::hit`. -/
def hitYZ : Rect R → Ray R → R → R → HitRecord R → Bool × HitRecord R := hitPlane 1 2 0 ![1, 0, 0]

/-- aarect.hpp:24, 52, 80: the padding of the boxes. -/
def pad : R := sqrt eps / 100

/-- aarect.hpp:20-28, `xy_rect::bounding_box`. -/
def bboxXY (s : Rect R) : Bool × AABB R := (true, ⟨![s.a0, s.b0, s.k - pad], ![s.a1, s.b1, s.k + pad]⟩)
/-- aarect.hpp:50-57, `xz_rect::bounding_box`. -/
def bboxXZ (s : Rect R) : Bool × AABB R := (true, ⟨![s.a0, s.k - pad, s.b0], ![s.a1, s.k + pad, s.b1]⟩)
/-- aarect.hpp:78-85, `yz_rect::bounding_box`. -/
def bboxYZ (s : Rect R) : Bool × AABB R := (true, ⟨![s.k - pad, s.a0, s.b0], ![s.k + pad, s.a1, s.b1]⟩)

/-- aarect.hpp:30-32, 59-61, 87-89: `operator()(u, v)` of all three classes. -/
def eval (_ : Rect R) (_ _ : R) : Vec R 3 := Vec.nans

/-- `xy_rect` as a member of a list or tree. -/
def xy (s : Rect R) : Hittable R := ⟨s.hitXY, s.bboxXY⟩
/-- `xz_rect` as a member of a list or tree. -/
def xz (s : Rect R) : Hittable R := ⟨s.hitXZ, s.bboxXZ⟩
/-- `yz_rect` as a member of a list or tree. -/
def yz (s : Rect R) : Hittable R := ⟨s.hitYZ, s.bboxYZ⟩

end Rect
end DRT
