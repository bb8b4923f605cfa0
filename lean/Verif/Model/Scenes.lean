import Verif.Model.ColorMaps
import Verif.Model.Disk
import Verif.Model.Ellipsoid
import Verif.Model.Enneper
import Verif.Model.Helicoid
import Verif.Model.RayColor
import Verif.Model.Rect
import Verif.Model.Sphere
import Verif.Model.Torus

/-!
# Model of `include/drt/box.hpp` and of parts of the scene programs in `src/`

The scene programs build a list of objects, a camera and an image size and call `render_scene`. Modelled here are the
expressions in them that compute something: the colours from the curvature, the height of the image, the position of the
camera and of the light behind it, the file names of the animation and the placement of the random spheres.
-/

namespace DRT
open Scalar Vec

variable {R : Type} [Scalar R]

/-! ## colours from the curvature -/

/-- ellipsoid_curvature.cpp:38 and torus_curvature.cpp:37: where a curvature lies between the bounds. -/
def linearScale (bounds : R × R) (kappa : R) : R := (kappa - bounds.1) / (bounds.2 - bounds.1)

/-- enneper.cpp:30-35 and helicoid.cpp:30-35: where a negative curvature lies between the bounds on a logarithmic scale. -/
def logScale (bounds : R × R) (kappa : R) : R :=
  let lnMin := log (-bounds.2)
  let lnMax := log (-bounds.1)
  (log (-kappa) - lnMin) / (lnMax - lnMin)

/-- ellipsoid_curvature.cpp:36-40, the texture of the ellipsoid; `none` is undefined behaviour in the colour map. -/
def ellipsoidColor (s : Ellipsoid R) (hr : HitRecord R) : Option (Vec R 3) :=
  ColorTables.viridis (linearScale s.curvatureBounds hr.gaussianCurvature)

/-- torus_curvature.cpp:35-39, the texture of the torus. -/
def torusColor (s : Torus R) (hr : HitRecord R) : Option (Vec R 3) :=
  ColorTables.smoothCoolWarm (linearScale s.curvatureBounds hr.gaussianCurvature)

/-- enneper.cpp:32-37, the texture of Enneper's surface. -/
def enneperColor (hr : HitRecord R) : Option (Vec R 3) :=
  ColorTables.viridis (logScale Enneper.curvatureBounds hr.gaussianCurvature)

/-- helicoid.cpp:32-37, the texture of the helicoid. -/
def helicoidColor (s : Helicoid R) (hr : HitRecord R) : Option (Vec R 3) :=
  ColorTables.smoothCoolWarm (logScale s.curvatureBounds hr.gaussianCurvature)

/-- disk.cpp:30-32, the texture of the disk. -/
def diskColor (hr : HitRecord R) : Option (Vec R 3) := ColorTables.viridis hr.u

/-! ## box.hpp -/

/-- box.hpp:22-26, the corners of `box<Real>`. -/
structure Cuboid (R : Type) where
  /-- `box_min_` -/
  lo : Vec R 3
  /-- `box_max_` -/
  hi : Vec R 3

namespace Cuboid

/-- box.hpp:30-44, the constructor: the list `sides_`. The class does not compile when it is used, because `add` (one
argument) and `hit` (returning a flag) of an earlier `hittable_list` are called; here the six sides share the one material
`m`. -/
def sides {M : Type} (b : Cuboid R) (m : M) : HittableList R M :=
  (((((HittableList.empty.add (Rect.xy ⟨b.lo 0, b.hi 0, b.lo 1, b.hi 1, b.hi 2⟩) m).add
    (Rect.xy ⟨b.lo 0, b.hi 0, b.lo 1, b.hi 1, b.lo 2⟩) m).add
    (Rect.xz ⟨b.lo 0, b.hi 0, b.lo 2, b.hi 2, b.hi 1⟩) m).add
    (Rect.xz ⟨b.lo 0, b.hi 0, b.lo 2, b.hi 2, b.lo 1⟩) m).add
    (Rect.yz ⟨b.lo 1, b.hi 1, b.lo 2, b.hi 2, b.hi 0⟩) m).add
    (Rect.yz ⟨b.lo 1, b.hi 1, b.lo 2, b.hi 2, b.lo 0⟩) m

/-- box.hpp:46-49, `hit`: the search through the sides; the flag is whether one was found. `temp0` is the
default-constructed record inside the list's search. -/
def hit (b : Cuboid R) (temp0 : HitRecord R) (r : Ray R) (tmin tmax : R) (rec : HitRecord R) : Bool × HitRecord R :=
  let h := (b.sides ()).hit r tmin tmax rec temp0
  (h.1 == some (some ()), h.2)

/-- box.hpp:17-20, `bounding_box`. -/
def bbox (b : Cuboid R) : Bool × AABB R := (true, ⟨b.lo, b.hi⟩)

end Cuboid

/-! ## image sizes and cameras -/

/-- cylinder.cpp:45, ellipsoid_curvature.cpp:55, render_spheres.cpp:88, with_lights.cpp:54 and the corresponding lines of the
other programs: `static_cast<int64_t>(image_width / aspect_ratio)`. -/
def imageHeight (width : ℕ) (aspect : R) : Option ℤ := toInt (lit (width : ℚ) / aspect)

/-- ellipsoid_curvature.cpp:66: the angle of frame `i`. `M_PI` is rounded to `pi`. -/
def frameAngle (i : ℕ) : R := 2 * pi * lit (i : ℚ) / 360

/-- ellipsoid_curvature.cpp:53, 58-59, 66-69: the camera of frame `i`. -/
def frameCamera (i : ℕ) : Camera R :=
  Camera.make ![7 * cos (frameAngle i), 0, 7 * sin (frameAngle i)] ![0, 0, 0] ![0, 1, 0] 40 (lit (16 / 10))

/-- ellipsoid_curvature.cpp:29-31, the ellipsoid of the animation. -/
def frameEllipsoid : Ellipsoid R := ⟨![0, 0, 0], ![lit (195 / 100), lit (15 / 10), lit (25 / 10)]⟩

/-- ellipsoid_curvature.cpp:73-81, the file name of frame `i`. -/
def frameName (i : ℕ) : String :=
  "ellipsoid_curvature_" ++ (if i < 10 then "00" else if i < 100 then "0" else "") ++ toString i ++ ".png"

/-- disk.cpp:54-55, ellipsoid_curvature.cpp:70-71, enneper.cpp:61-62, helicoid.cpp:94-95: the disk that lights the scene from
behind the camera. -/
def backlightDisk (c : Camera R) : Option (Disk R) := Disk.make 10 c.backlight.1 c.backlight.2

/-! ## the scene of random spheres -/

/-- render_spheres.cpp:41: the centre of the small sphere of cell `(a, b)` for the random numbers `x`, `z`. The literal `0.9`
is a `double` in the code. -/
def smallCenter (a b : ℤ) (x z : R) : Vec R 3 :=
  ![lit (a : ℚ) + lit (9 / 10) * x, lit (2 / 10), lit (b : ℚ) + lit (9 / 10) * z]

/-- render_spheres.cpp:41-43, 53, 61, 65: the small sphere of cell `(a, b)`, unless it is too near to the metal sphere. -/
def smallSphere (a b : ℤ) (x z : R) : Option (Sphere R) :=
  let c := smallCenter a b x z
  if gt (Vec.norm (c - ![4, lit (2 / 10), 0])) (lit (9 / 10)) then some ⟨c, lit (2 / 10)⟩ else none

/-- render_spheres.cpp:36, the ground. -/
def groundSphere : Sphere R := ⟨![0, -1000, 0], 1000⟩
/-- render_spheres.cpp:71-72, the large glass sphere. -/
def glassSphere : Sphere R := ⟨![0, 1, 0], 1⟩
/-- render_spheres.cpp:74-75, the large dull sphere. -/
def dullSphere : Sphere R := ⟨![-4, 1, 0], 1⟩
/-- render_spheres.cpp:77-78, the large metal sphere. -/
def metalSphere : Sphere R := ⟨![4, 1, 0], 1⟩

end DRT
