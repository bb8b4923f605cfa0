import Verif.Model.Programs

/-! # Model of the `main` function of `ellipsoid_curvature.cpp` -/

namespace DRT
open Scalar

variable {R : Type} [Scalar R]

namespace Animation

/-- ellipsoid_curvature.cpp:26-48, 64-65, 70-72: the objects of frame `i`. The random state is the generator of the ellipsoid's
material; every frame makes its own. `none` means that the matrix of the disk has no inverse. -/
def objects (i : ℕ) : Option (HittableList R (Material R Pcg)) :=
  (backlightDisk (frameCamera i)).map fun l =>
    (HittableList.empty.add (frameEllipsoid (R := R)).toHittable
      (Material.lambertianMap (ellipsoidColor frameEllipsoid) id (fun g _ => g))).add l.toHittable
      (Material.diffuseLight (solidColor ![1, 1, 1]))

/-- ellipsoid_curvature.cpp:53-83, frame `i`. The height is `1200/1.6` (`C111_double`). The parallel loop over the frames is not
modelled: the frames have no object in common but the light, which has no state. -/
def scene (i : ℕ) (rec0 temp0 : HitRecord R) : Option (Render.Scene R Pcg) :=
  (objects i).map fun l =>
    { width := 1200, height := 750, background := ![0, 0, 0], camera := frameCamera i, world := l.world temp0, samples := 1024,
      rec0 := rec0 }

end Animation
end DRT
