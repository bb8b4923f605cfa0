import Verif.Model.Cylinder
import Verif.Model.Render
import Verif.Model.Scenes

/-!
# Model of the programs `with_lights.cpp`, `cylinder.cpp`, `render_spheres.cpp`, `ellipsoid.cpp`, `disk.cpp` and `torus_curvature.cpp`

Each program is a `Render.Scene`: the objects with their materials, the camera, the background, the size of the image and the
number of samples. The random state of a program holds one generator for each material and medium that owns one.
-/

namespace DRT
open Scalar Vec

variable {R : Type} [Scalar R] {S : Type}

/-- lambertian.hpp:17-18: the generator of a `lambertian`, as the constructor seeds it. -/
def lambertianSeed : Pcg := ⟨1235123#64, 234121#64⟩

/-- dielectric.hpp:30: the emission of a `dielectric` built without an emission texture. -/
def blackTexture : Texture R := solidColor ![0, 0, 0]

/-! ## lists with media -/

/-- hittable.hpp:87: an object whose `hit` may draw random numbers. -/
structure RandomHittable (R S : Type) where
  /-- `hit(r, t_min, t_max, rec)` -/
  hit : S → Ray R → R → R → HitRecord R → Bool × HitRecord R × S

/-- An object that draws no random numbers. -/
def RandomHittable.ofHittable (o : Hittable R) : RandomHittable R S := ⟨fun s r a b rec => ((o.hit r a b rec).1, (o.hit r a b rec).2, s)⟩

/-- constant_medium.hpp:41-75: a medium. `draw` is `dis_(gen_)`. Simplification: the generator also advances when `hit` returns
before it draws. `rec1` and `rec2` are the default-constructed records inside. -/
def RandomHittable.ofMedium (m : ConstantMedium R) (rec1 rec2 : HitRecord R) (draw : S → R × S) : RandomHittable R S :=
  ⟨fun s r a b rec => ((m.hit (draw s).1 rec1 rec2 r a b rec).1, (m.hit (draw s).1 rec1 rec2 r a b rec).2, (draw s).2)⟩

/-- hittable_list.hpp:40-49: one iteration of the loop. -/
def randomStep (r : Ray R) (tmin : R) (st : HittableList.State R × S) (i : ℕ) (o : RandomHittable R S) : HittableList.State R × S :=
  let h := o.hit st.2 r tmin st.1.closest st.1.temp
  if h.1 then
    if lt h.2.1.t st.1.closest then ({ temp := h.2.1, closest := h.2.1.t, out := h.2.1, idx := some i }, h.2.2)
    else ({ st.1 with temp := h.2.1 }, h.2.2)
  else ({ st.1 with temp := h.2.1 }, h.2.2)

/-- hittable_list.hpp:40-49: the loop from index `i`. -/
def randomLoop (r : Ray R) (tmin : R) : List (RandomHittable R S) → ℕ → HittableList.State R × S → HittableList.State R × S
  | [], _, st => st
  | o :: os, i, st => randomLoop r tmin os (i + 1) (randomStep r tmin st i o)

/-- hittable_list.hpp:35-58: the scene given by a list of objects that may draw random numbers. -/
def randomWorld (objects : List (RandomHittable R S)) (materials : List (Material R S)) (temp0 : HitRecord R) : World R S :=
  fun s r tmin tmax rec =>
    let st := randomLoop r tmin objects 0 (⟨temp0, tmax, rec, none⟩, s)
    match st.1.idx with
    | none => some (none, st.1.out, st.2)
    | some i => materials[i]?.map fun m => (some m, st.1.out, st.2)

/-! ## with_lights.cpp -/

namespace WithLights

/-- with_lights.cpp:32-46, the objects. The random state is the generator of the ground. -/
def objects : HittableList R (Material R Pcg) :=
  ((HittableList.empty.add (Sphere.toHittable ⟨![0, -1000, 0], 1000⟩)
      (Material.lambertian (checkerTexture (solidColor ![lit (8 / 10), 0, 1]) (solidColor ![0, lit (8 / 10), 1])) id (fun g _ => g))).add
    (Sphere.toHittable ⟨![0, 2, 0], 2⟩) (Material.metal (solidColor ![lit (2 / 10), lit (4 / 10), lit (9 / 10)]))).add
    (Rect.xy ⟨3, 5, 1, 3, -2⟩) (Material.diffuseLight (solidColor ![4, 4, 4]))

/-- with_lights.cpp:49-65, the program. The height is `1800/1.6` (`C111_float`). -/
def scene (rec0 temp0 : HitRecord R) : Render.Scene R Pcg where
  width := 1800
  height := 1125
  background := ![lit (1 / 100), lit (2 / 100), lit (1 / 100)]
  camera := Camera.make ![26, 3, 6] ![0, 2, 0] ![0, 1, 0] 20 (lit (16 / 10))
  world := objects.world temp0
  samples := 16
  rec0 := rec0

end WithLights

/-! ## cylinder.cpp -/

namespace CylinderProgram

/-- cylinder.cpp:25-36, the objects. The random state is the generator of the cylinder's material. -/
def objects : HittableList R (Material R Pcg) :=
  (HittableList.empty.add (Rect.yz ⟨-10, 10, -10, 10, 20⟩) (Material.diffuseLight (solidColor ![3, 3, 3]))).add
    (Cylinder.toHittable ⟨3, -10, 10⟩) (Material.lambertian (solidColor ![0, 0, 1]) id (fun g _ => g))

/-- cylinder.cpp:40-55, the program. The height is `1200/1.6` (`C111_double`). -/
def scene (rec0 temp0 : HitRecord R) : Render.Scene R Pcg where
  width := 1200
  height := 750
  background := ![0, 0, 0]
  camera := Camera.make ![10, 10, 0] ![0, 0, 0] ![0, 1, 0] 40 (lit (16 / 10))
  world := objects.world temp0
  samples := 16
  rec0 := rec0

end CylinderProgram

/-! ## render_spheres.cpp -/

namespace RenderSpheres

/-- The random state: the generators of the `lambertian`s and, for each `dielectric`, the numbers that it has yet to draw. -/
abbrev State (R : Type) := (ℕ → Pcg) × (ℕ → ℕ → R)

/-- The material number `n`, if it is a `lambertian`. -/
def dull (n : ℕ) (albedo : Texture R) : Material R (State R) :=
  Material.lambertian albedo (fun s => s.1 n) (fun g s => (Function.update s.1 n g, s.2))

/-- The material number `n`, if it is a `dielectric` of index 1.5. -/
def glass (n : ℕ) : Material R (State R) :=
  Material.dielectric (lit (15 / 10)) blackTexture fun s => (s.2 n 0, (s.1, Function.update s.2 n fun k => s.2 n (k + 1)))

/-- render_spheres.cpp:40-41, 48-50, 57-59: the numbers drawn for one cell. -/
structure Cell (R : Type) where
  /-- `choose_mat` -/
  choose : R
  /-- the offset in the first coordinate -/
  x : R
  /-- the offset in the third coordinate -/
  z : R
  /-- the draws for the albedo -/
  a : Fin 6 → R

/-- render_spheres.cpp:46-66, the material of a small sphere. A metal uses only three of the draws. -/
def smallMaterial (n : ℕ) (c : Cell R) : Material R (State R) :=
  if lt c.choose (lit (5 / 10)) then dull n (solidColor ![c.a 0 * c.a 1, c.a 2 * c.a 3, c.a 4 * c.a 5])
  else if lt c.choose (lit (75 / 100)) then
    Material.metal (solidColor ![c.a 0 / 2 + lit (5 / 10), c.a 1 / 2 + lit (5 / 10), c.a 2 / 2 + lit (5 / 10)])
  else glass n

/-- render_spheres.cpp:38-39: the cells in the order of the loops. -/
def cells : List (ℤ × ℤ) := (List.range 22).flatMap fun a => (List.range 22).map fun b => ((a : ℤ) - 11, (b : ℤ) - 11)

/-- render_spheres.cpp:40-68, the body of the loops. -/
def addCell (draws : ℤ → ℤ → Cell R) (l : HittableList R (Material R (State R))) (ab : ℤ × ℤ) : HittableList R (Material R (State R)) :=
  let c := draws ab.1 ab.2
  match smallSphere ab.1 ab.2 c.x c.z with
  | none => l
  | some s => l.add s.toHittable (smallMaterial (22 * (ab.1 + 11) + (ab.2 + 11)).toNat c)

/-- render_spheres.cpp:22-80, the objects. -/
def objects (draws : ℤ → ℤ → Cell R) : HittableList R (Material R (State R)) :=
  let ground := HittableList.empty.add (groundSphere (R := R)).toHittable (dull 487
    (checkerTexture (solidColor ![lit (2 / 10), lit (3 / 10), lit (1 / 10)]) (solidColor ![lit (9 / 10), lit (9 / 10), lit (9 / 10)])))
  (((cells.foldl (addCell draws) ground).add (glassSphere (R := R)).toHittable (glass 484)).add (dullSphere (R := R)).toHittable
    (dull 485 (solidColor ![lit (4 / 10), lit (2 / 10), lit (1 / 10)]))).add (metalSphere (R := R)).toHittable
    (Material.metal (solidColor ![lit (7 / 10), lit (6 / 10), lit (5 / 10)]))

/-- render_spheres.cpp:82-100, the program, for the random numbers of `random_scene`. The height is `1800/1.6` (`C111_float`). -/
def scene (draws : ℤ → ℤ → Cell R) (rec0 temp0 : HitRecord R) : Render.Scene R (State R) where
  width := 1800
  height := 1125
  background := ![lit (70 / 100), lit (80 / 100), 1]
  camera := Camera.make ![13, 2, 3] ![0, 0, 0] ![0, 1, 0] 20 (lit (16 / 10))
  world := (objects draws).world temp0
  samples := 128
  rec0 := rec0

end RenderSpheres

/-! ## ellipsoid.cpp -/

namespace EllipsoidProgram

/-- The random state: the numbers yet to be drawn by the `dielectric`, by the medium and by the `isotropic`. -/
abbrev State (R : Type) := (ℕ → R) × (ℕ → R) × (ℕ → Vec R 3)

/-- ellipsoid.cpp:35-38, `boundary`. -/
def boundary : Ellipsoid R :=
  ⟨![260, 250, 45], ![lit (35 / 10) * 60, lit (35 / 10) * 55, lit (35 / 10) * 40]⟩

/-- ellipsoid.cpp:31-45, the objects. -/
def objects (rec1 rec2 : HitRecord R) : List (RandomHittable R (State R)) :=
  [.ofHittable (Rect.xz ⟨123, 423, 147, 412, 700⟩), .ofHittable (boundary (R := R)).toHittable,
    .ofMedium (ConstantMedium.make (boundary (R := R)).toHittable (lit (15 / 1000))) rec1 rec2
      fun s => (s.2.1 0, (s.1, fun k => s.2.1 (k + 1), s.2.2))]

/-- ellipsoid.cpp:32, 39, 41: the materials of the objects. -/
def materials : List (Material R (State R)) :=
  [Material.diffuseLight (solidColor ![7, 7, 7]),
    Material.dielectric (lit (15 / 10)) blackTexture fun s => (s.1 0, (fun k => s.1 (k + 1), s.2)),
    Material.isotropic (solidColor ![lit (2 / 100), lit (4 / 10), lit (9 / 10)]) fun s => (s.2.2 0, (s.1, s.2.1, fun k => s.2.2 (k + 1)))]

/-- ellipsoid.cpp:48-64, the program. The height is `2880/1.6` (`C111_double`). -/
def scene (rec0 rec1 rec2 temp0 : HitRecord R) : Render.Scene R (State R) where
  width := 2880
  height := 1800
  background := ![0, 0, 0]
  camera := Camera.make ![478, 278, -600] ![278, 278, 0] ![0, 1, 0] 40 1
  world := randomWorld (objects rec1 rec2) materials temp0
  samples := 32
  rec0 := rec0

end EllipsoidProgram

/-! ## disk.cpp -/

/-- lambertian.hpp:12-56 with a `lambda_texture` (texture.hpp:35-48) whose function has undefined behaviour where `albedo` is `none`. -/
def Material.lambertianMap (albedo : HitRecord R → Option (Vec R 3)) (get : S → Pcg) (set : Pcg → S → S) : Material R S where
  emitted := emittedDefault
  scatter s r rec := (albedo rec).bind fun c => (Material.lambertian (solidColor c) get set).scatter s r rec

namespace DiskProgram

/-- disk.cpp:50-53, the camera. -/
def camera : Camera R := Camera.make ![0, -4, 2] ![0, 0, 0] ![0, 0, 1] 40 1

/-- disk.cpp:24-28, the disk. The quotient is computed in `double`, which is `Real`. -/
def disk : Option (Disk R) := Disk.make 1 ![0, 0, 0] ![1 / sqrt 2, 0, -(1 / sqrt 2)]

/-- disk.cpp:23-37, 54-57: the objects. The random state is the generator of the disk's material. `none` means that the matrix of a
disk has no inverse. -/
def objects : Option (HittableList R (Material R Pcg)) :=
  disk.bind fun s => (backlightDisk camera).map fun l =>
    (HittableList.empty.add s.toHittable (Material.lambertianMap diskColor id (fun g _ => g))).add l.toHittable
      (Material.diffuseLight (solidColor ![5, 5, 5]))

/-- disk.cpp:41-59, the program. -/
def scene (rec0 temp0 : HitRecord R) : Option (Render.Scene R Pcg) :=
  objects.map fun l =>
    { width := 800, height := 800, background := ![0, 0, 0], camera := camera, world := l.world temp0, samples := 256, rec0 := rec0 }

end DiskProgram

/-! ## torus_curvature.cpp -/

namespace TorusProgram

/-- torus_curvature.cpp:28-31, the torus. -/
def torus : Torus R := ⟨![0, 0, 0], 3, 1⟩

/-- torus_curvature.cpp:23-45, the objects. The random state is the generator of the torus' material. -/
def objects : HittableList R (Material R Pcg) :=
  ((HittableList.empty.add (Rect.yz ⟨-10, 10, -10, 10, 20⟩) (Material.diffuseLight (solidColor ![1, 1, 1]))).add
    (Rect.xy ⟨-100, 100, -100, 100, -20⟩) (Material.diffuseLight (solidColor ![1, 1, 1]))).add
    (torus (R := R)).toHittable (Material.lambertianMap (torusColor torus) id (fun g _ => g))

/-- torus_curvature.cpp:48-65, the program. -/
def scene (rec0 temp0 : HitRecord R) : Render.Scene R Pcg where
  width := 1200
  height := 1200
  background := ![0, 0, 0]
  camera := Camera.make ![lit (7 / 10) * 5, -10 * lit (7 / 10), -15 * lit (7 / 10)] ![0, 0, 0] ![0, 1, 0] 40 1
  world := objects.world temp0
  samples := 128
  rec0 := rec0

end TorusProgram

end DRT
