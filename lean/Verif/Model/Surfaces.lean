import Verif.Model.Helicoid
import Verif.Model.Programs

/-!
# Model of the programs `enneper.cpp` and `helicoid.cpp`

The `hit` of Enneper's surface and of the helicoid can fail an assertion or read an indeterminate value, so these scenes are lists of
objects whose `hit` is a partial function.
-/

namespace DRT
open Scalar Vec

variable {R : Type} [Scalar R] {S : Type}

/-- hittable.hpp:87: an object whose `hit` may be undefined. -/
abbrev PartialHittable (R : Type) := Ray R → R → R → HitRecord R → Option (Bool × HitRecord R)

/-- An object whose `hit` is always defined. -/
def PartialHittable.ofHittable (o : Hittable R) : PartialHittable R := fun r a b rec => some (o.hit r a b rec)

/-- hittable_list.hpp:40-49: one iteration of the loop. -/
def partialStep (r : Ray R) (tmin : R) (st : HittableList.State R) (i : ℕ) (o : PartialHittable R) : Option (HittableList.State R) :=
  (o r tmin st.closest st.temp).map fun h =>
    if h.1 then
      if lt h.2.t st.closest then { temp := h.2, closest := h.2.t, out := h.2, idx := some i } else { st with temp := h.2 }
    else { st with temp := h.2 }

/-- hittable_list.hpp:40-49: the loop from index `i`. -/
def partialLoop (r : Ray R) (tmin : R) : List (PartialHittable R) → ℕ → HittableList.State R → Option (HittableList.State R)
  | [], _, st => some st
  | o :: os, i, st => (partialStep r tmin st i o).bind (partialLoop r tmin os (i + 1))

/-- hittable_list.hpp:35-58: the scene given by a list of objects whose `hit` may be undefined. -/
def partialWorld (objects : List (PartialHittable R)) (materials : List (Material R S)) (temp0 : HitRecord R) : World R S :=
  fun s r tmin tmax rec =>
    (partialLoop r tmin objects 0 ⟨temp0, tmax, rec, none⟩).bind fun st =>
      match st.idx with
      | none => some (none, st.out, s)
      | some i => materials[i]?.map fun m => (some m, st.out, s)

/-! ## enneper.cpp -/

namespace EnneperProgram

/-- enneper.cpp:57-60, the camera. -/
def camera : Camera R := Camera.make ![10, -10, 0] ![0, 0, 0] ![0, 0, 1] 40 1

/-- enneper.cpp:27-28 and 61-64, the objects. `solve` is what `matrix::solve` does (`Mat.solve3` in the code). `none` means that the matrix
of the disk has no inverse. -/
def objects (solve : Mat R 3 3 → Vec R 3 → Option (Vec R 3)) : Option (List (PartialHittable R)) :=
  (backlightDisk camera).map fun l => [Enneper.hitWith solve ⟨4⟩, PartialHittable.ofHittable l.toHittable]

/-- enneper.cpp:29-43 and 63, the materials. The random state is the generator of the surface's material. -/
def materials : List (Material R Pcg) :=
  [Material.lambertianMap enneperColor id (fun g _ => g), Material.diffuseLight (solidColor ![2, 2, 2])]

/-- enneper.cpp:48-68, the program. -/
def scene (solve : Mat R 3 3 → Vec R 3 → Option (Vec R 3)) (rec0 temp0 : HitRecord R) : Option (Render.Scene R Pcg) :=
  (objects solve).map fun l =>
    { width := 800, height := 800, background := ![0, 0, 0], camera := camera, world := partialWorld l materials temp0, samples := 16,
      rec0 := rec0 }

end EnneperProgram

/-! ## helicoid.cpp -/

namespace HelicoidProgram

/-- The random state: the generator of the surface's material and the numbers that the material of the cylinder has yet to draw. -/
abbrev State (R : Type) := Pcg × (ℕ → R)

/-- helicoid.cpp:26-28, the surface. -/
def surface : Helicoid R := ⟨1, 3⟩

/-- helicoid.cpp:89-92, the camera. -/
def camera : Camera R := Camera.make ![0, -4, 0] ![0, 0, 0] ![0, 1, 1] 40 1

/-- helicoid.cpp:28, 46 and 94-102, the objects. `junk` is the indeterminate value of `Helicoid.hit`. `none` means that the matrix of a disk
has no inverse. -/
def objects (junk : R) : Option (List (PartialHittable R)) :=
  (backlightDisk camera).bind fun l => (Disk.make 10 ![8, 0, 0] ![1, 0, 0]).bind fun l2 => (Disk.make 10 ![-8, 0, 0] ![1, 0, 0]).map fun l3 =>
    [surface.hit junk, PartialHittable.ofHittable (Cylinder.toHittable ⟨1, -3, 3⟩), PartialHittable.ofHittable l.toHittable,
      PartialHittable.ofHittable l2.toHittable, PartialHittable.ofHittable l3.toHittable]

/-- helicoid.cpp:47-50: the material of the cylinder, glass of index 1 whose emission is a blue that is multiplied by zero. -/
def glass : Material R (State R) :=
  Material.dielectric 1 (solidColor ((0 : R) •. ![lit (2 / 100), lit (4 / 10), lit (9 / 10)]))
    fun s => (s.2 0, (s.1, fun k => s.2 (k + 1)))

/-- helicoid.cpp:29-51 and 96-102, the materials. -/
def materials : List (Material R (State R)) :=
  [Material.lambertianMap (helicoidColor surface) Prod.fst (fun g s => (g, s.2)), glass, Material.diffuseLight (solidColor ![1, 1, 1]),
    Material.diffuseLight (solidColor ![1, 1, 1]), Material.diffuseLight (solidColor ![1, 1, 1])]

/-- helicoid.cpp:79-107, the program. -/
def scene (junk : R) (rec0 temp0 : HitRecord R) : Option (Render.Scene R (State R)) :=
  (objects junk).map fun l =>
    { width := 1200, height := 1200, background := ![0, 0, 0], camera := camera, world := partialWorld l materials temp0, samples := 512,
      rec0 := rec0 }

end HelicoidProgram
end DRT
