import Verif.Model.Roots
import Verif.Model.Vec

/-! # Model of `aabb.hpp`, `hittable.hpp`, `hittable_list.hpp` and `bvh.hpp` -/

namespace DRT
open Scalar

variable {R : Type} [Scalar R]

/-- aabb.hpp:39-40, the members of `aabb<Real>`. -/
structure AABB (R : Type) where
  /-- `min_` -/
  lo : Vec R 3
  /-- `max_` -/
  hi : Vec R 3

namespace AABB

/-- aabb.hpp:19-30: one iteration of the slab loop; the narrowed `(t_min, t_max)`, or `none` for `return false`. -/
def slab (b : AABB R) (r : Ray R) (i : Fin 3) (t : R × R) : Option (R × R) :=
  let invD := 1 / r.dir i
  let t0 := (b.lo i - r.origin i) * invD
  let t1 := (b.hi i - r.origin i) * invD
  let t01 := if lt invD 0 then (t1, t0) else (t0, t1)
  let tmin := if gt t01.1 t.1 then t01.1 else t.1
  let tmax := if lt t01.2 t.2 then t01.2 else t.2
  if le tmax tmin then none else some (tmin, tmax)

/-- aabb.hpp:18-31, `aabb::hit(r, t_min, t_max)`. -/
def hit (b : AABB R) (r : Ray R) (tmin tmax : R) : Bool :=
  (((b.slab r 0 (tmin, tmax)).bind (b.slab r 1)).bind (b.slab r 2)).isSome

/-- aabb.hpp:43-56, `surrounding_box(box0, box1)`. -/
def surrounding (a b : AABB R) : AABB R :=
  ⟨fun i => fmin (a.lo i) (b.lo i), fun i => fmax (a.hi i) (b.hi i)⟩

end AABB

/-- hittable.hpp:14-45, the members of `hit_record<Real>`. -/
structure HitRecord (R : Type) where
  /-- `p` (uninitialised in a default-constructed record) -/
  p : Vec R 3
  /-- `normal` (uninitialised in a default-constructed record) -/
  normal : Vec R 3
  /-- `gradient_magnitude` -/
  gradMag : R
  /-- `t` -/
  t : R
  /-- `u` -/
  u : R
  /-- `v` -/
  v : R
  /-- `front_face` (uninitialised in a default-constructed record) -/
  frontFace : Bool
  /-- `E` -/
  E : R
  /-- `F` -/
  F : R
  /-- `G` -/
  G : R
  /-- `e` -/
  e : R
  /-- `f` -/
  f : R
  /-- `g` -/
  g : R
  /-- `condition_number` -/
  cond : R

namespace HitRecord

/-- hittable.hpp:15-45: a default-constructed record; `p`, `normal` and `front_face` hold whatever was in memory. -/
def default (p normal : Vec R 3) (ff : Bool) : HitRecord R :=
  ⟨p, normal, nan, nan, nan, nan, ff, nan, nan, nan, nan, nan, nan, nan⟩

/-- hittable.hpp:26-29, `set_face_normal(r, outward_normal)`. -/
def setFaceNormal (rec : HitRecord R) (r : Ray R) (n : Vec R 3) : HitRecord R :=
  let ff := lt (Vec.dot r.dir n) 0
  { rec with frontFace := ff, normal := if ff then n else -n }

/-- hittable.hpp:47-49, `gaussian_curvature()`. -/
def gaussianCurvature (h : HitRecord R) : R := (h.e * h.g - h.f * h.f) / (h.E * h.G - h.F * h.F)

/-- hittable.hpp:51-53, `mean_curvature()`. -/
def meanCurvature (h : HitRecord R) : R :=
  (h.e * h.G - 2 * h.f * h.F + h.g * h.E) / (2 * (h.E * h.G - h.F * h.F))

/-- hittable.hpp:55-63, `principal_curvatures()`. -/
def principalCurvatures (h : HitRecord R) : R × R :=
  match quadraticRoots 1 (-2 * h.meanCurvature) h.gaussianCurvature with
  | [x, y] => (x, y)
  | _ => (nan, nan)

end HitRecord

/-- hittable.hpp:84-91: the two virtual functions of `hittable` used by lists and trees. An object is an arbitrary
pair of functions: `hit` receives the prior contents of the record and returns the new contents. `bbox` is the
returned flag and the box written. -/
structure Hittable (R : Type) where
  /-- `hit(r, t_min, t_max, rec)` -/
  hit : Ray R → R → R → HitRecord R → Bool × HitRecord R
  /-- `bounding_box(output_box)` -/
  bbox : Bool × AABB R

/-- hittable_list.hpp:31-32, the members of `hittable_list<Real>`; `M` is the type of material pointers. -/
structure HittableList (R M : Type) where
  /-- `objects` -/
  objects : List (Hittable R)
  /-- `materials` -/
  materials : List M

namespace HittableList
variable {M : Type}

/-- hittable_list.hpp:14, the default constructor. -/
def empty : HittableList R M := ⟨[], []⟩

/-- hittable_list.hpp:17-20, `clear()`. -/
def clear (_ : HittableList R M) : HittableList R M := ⟨[], []⟩

/-- hittable_list.hpp:21-24, `add(object, mat)`. -/
def add (l : HittableList R M) (o : Hittable R) (m : M) : HittableList R M :=
  ⟨l.objects ++ [o], l.materials ++ [m]⟩

/-- hittable_list.hpp:37-39: the local variables of `hit` together with the caller's record. -/
structure State (R : Type) where
  /-- `temp_rec` -/
  temp : HitRecord R
  /-- `closest_so_far` -/
  closest : R
  /-- `rec` -/
  out : HitRecord R
  /-- `hit_idx`, with `none` for -1 -/
  idx : Option ℕ

/-- hittable_list.hpp:40-49: one iteration of the loop. -/
def step (r : Ray R) (tmin : R) (s : State R) (i : ℕ) (o : Hittable R) : State R :=
  let h := o.hit r tmin s.closest s.temp
  if h.1 then
    if lt h.2.t s.closest then { temp := h.2, closest := h.2.t, out := h.2, idx := some i }
    else { s with temp := h.2 }
  else { s with temp := h.2 }

/-- hittable_list.hpp:40-49: the loop from index `i`. -/
def loop (r : Ray R) (tmin : R) : List (Hittable R) → ℕ → State R → State R
  | [], _, s => s
  | o :: os, i, s => loop r tmin os (i + 1) (step r tmin s i o)

/-- hittable_list.hpp:35-58, `hit`. `temp0` is the default-constructed `temp_rec`. The outer `none` is the undefined
behaviour of reading `materials` out of range; the inner option is the returned pointer. -/
def hit (l : HittableList R M) (r : Ray R) (tmin tmax : R) (rec temp0 : HitRecord R) :
    Option (Option M) × HitRecord R :=
  let s := loop r tmin l.objects 0 ⟨temp0, tmax, rec, none⟩
  match s.idx with
  | none => (some none, s.out)
  | some i => (l.materials[i]?.map some, s.out)

/-- hittable_list.hpp:66-70: the loop over the members. -/
def boxLoop : List (Hittable R) → Bool → AABB R → Bool × AABB R
  | [], _, out => (true, out)
  | o :: os, first, out =>
    if o.bbox.1 then boxLoop os false (if first then o.bbox.2 else AABB.surrounding out o.bbox.2)
    else (false, out)

/-- hittable_list.hpp:60-73, `bounding_box(output_box)`. -/
def boundingBox (l : HittableList R M) (out : AABB R) : Bool × AABB R :=
  match l.objects with
  | [] => (false, out)
  | os => boxLoop os true out

end HittableList

/-- bvh.hpp:33-35: a pointer to a `hittable` inside a tree is either an object or another node. -/
inductive Bvh (R : Type) where
  /-- an object of the scene -/
  | obj (o : Hittable R)
  /-- `left_`, `right_`, `box_` -/
  | node (left right : Bvh R) (box : AABB R)

namespace Bvh

/-- bvh.hpp:38-42 and hittable.hpp:89, `bounding_box`. -/
def bbox : Bvh R → Bool × AABB R
  | obj o => o.bbox
  | node _ _ b => (true, b)

/-- bvh.hpp:44-53, `hit`. The record is passed to both children without a temporary. -/
def hit : Bvh R → Ray R → R → R → HitRecord R → Bool × HitRecord R
  | obj o, r, tmin, tmax, rec => o.hit r tmin tmax rec
  | node l rt b, r, tmin, tmax, rec =>
    if b.hit r tmin tmax then
      let hl := hit l r tmin tmax rec
      let hr := hit rt r tmin (if hl.1 then hl.2.t else tmax) hl.2
      (hl.1 || hr.1, hr.2)
    else (false, rec)

/-- bvh.hpp:55-65, `box_compare(a, b, axis)` (the message on a missing box is not modelled). -/
def boxCompare (axis : Fin 3) (a b : Hittable R) : Bool := lt (a.bbox.2.lo axis) (b.bbox.2.lo axis)

/-- bvh.hpp:88-93: the axis is drawn from `{0,1,2,3}`; 2 and 3 both select the z axis. -/
def comparator (axis : Fin 4) : Hittable R → Hittable R → Bool :=
  if axis = 0 then boxCompare 0 else if axis = 1 then boxCompare 1 else boxCompare 2

/-- bvh.hpp:123-130: closing a node over two children. -/
def close (l r : Bvh R) : Bvh R := node l r (AABB.surrounding l.bbox.2 r.bbox.2)

/-- bvh.hpp:82-131: construction over `objs = objects[start..end)`. `axis` gives the random draw and `srt` the result
of `std::sort` at each node, addressed by the path from the root; `std::sort` is an arbitrary function here, constrained
in the theorems to return a permutation. `none` means that `fuel` nested constructor calls were not enough. -/
def build (axis : List Bool → Fin 4) (srt : List Bool → (Hittable R → Hittable R → Bool) → List (Hittable R) → List (Hittable R)) :
    ℕ → List Bool → List (Hittable R) → Option (Bvh R)
  | 0, _, _ => none
  | fuel + 1, path, objs =>
    match objs with
    | [o] => some (close (obj o) (obj o))
    | [a, b] => some (if comparator (axis path) a b then close (obj a) (obj b) else close (obj b) (obj a))
    | objs =>
      let s := srt path (comparator (axis path)) objs
      match build axis srt fuel (false :: path) (s.take (objs.length / 2)),
            build axis srt fuel (true :: path) (s.drop (objs.length / 2)) with
      | some l, some r => some (close l r)
      | _, _ => none

/-- The objects at the leaves, from left to right (used in statements only). -/
def leaves : Bvh R → List (Hittable R)
  | obj o => [o]
  | node l r _ => leaves l ++ leaves r

end Bvh
end DRT
