import Verif.Model.Material

/-!
# Model of `ray_color.hpp` and `camera.hpp`

All generators of a scene (the members `pcg_`, `gen_`, `dis_` of its materials and media) together are one value of an
arbitrary type `S` of random states.
-/

namespace DRT
open Scalar Vec

variable {R : Type} [Scalar R] {S : Type}

/-- material.hpp:10-19: the two virtual functions of `material`. `scatter` is `none` when the call does not come back. -/
structure Material (R S : Type) where
  /-- `emitted(hr)` -/
  emitted : HitRecord R → Vec R 3
  /-- `scatter(r_in, rec, attenuation, scattered)` -/
  scatter : S → Ray R → HitRecord R → Option (Scattered R × S)

namespace Material

/-- lambertian.hpp:13-59: `lambertian` as a `material`; `get` and `set` select its generator in the random state. At most
`2^64` bodies of the sampling loop are run. -/
def lambertian (albedo : Texture R) (get : S → Pcg) (set : Pcg → S → S) : Material R S where
  emitted := emittedDefault
  scatter s r rec := (Lambertian.scatter albedo (2 ^ 64) (get s) r rec).map fun x => (x.1, set x.2 s)

/-- isotropic.hpp:12-45: `isotropic` as a `material`; `draw` makes the three draws. -/
def isotropic (albedo : Texture R) (draw : S → Vec R 3 × S) : Material R S where
  emitted := emittedDefault
  scatter s r rec := some (Isotropic.scatter albedo (draw s).1 r rec, (draw s).2)

/-- metal.hpp:10-33: `metal` as a `material`. -/
def metal (albedo : Texture R) : Material R S where
  emitted := emittedDefault
  scatter s r rec := some (Metal.scatter albedo r rec, s)

/-- dielectric.hpp:23-80: `dielectric` as a `material`; `draw` is `dis_(gen_)`. Simplification: the generator also advances when the
short circuit of line 49 skips the draw. -/
def dielectric (ir : R) (emit : Texture R) (draw : S → R × S) : Material R S where
  emitted := Dielectric.emitted emit
  scatter s r rec := some (Dielectric.scatter ir (draw s).1 r rec, (draw s).2)

/-- diffuse_light.hpp:11-31: `diffuse_light` as a `material`. -/
def diffuseLight (emit : Texture R) : Material R S where
  emitted := DiffuseLight.emitted emit
  scatter s r rec := some (DiffuseLight.scatter r rec, s)

end Material

/-- hittable_list.hpp:26: `hit` of the scene, as `ray_color` calls it: the returned pointer, the record and the new random state
(media draw random numbers in `hit`); `none` is undefined behaviour or an abort. -/
abbrev World (R S : Type) := S → Ray R → R → R → HitRecord R → Option (Option (Material R S) × HitRecord R × S)

/-- hittable_list.hpp:35-58: the scene given by a list of objects that draw no random numbers. -/
def HittableList.world (l : HittableList R (Material R S)) (temp0 : HitRecord R) : World R S := fun s r tmin tmax rec =>
  (l.hit r tmin tmax rec temp0).1.map fun m => (m, (l.hit r tmin tmax rec temp0).2, s)

/-- What `ray_color` yields: the colour and the random state. `queries` is a ghost: the number of calls of `world.hit`. -/
structure Shade (R S : Type) where
  /-- the returned colour -/
  color : Vec R 3
  /-- the random state afterwards -/
  state : S
  /-- how often `world.hit` was called -/
  queries : ℕ

/-- ray_color.hpp:9-33, `ray_color(r, background_color, world, depth)` for `depth ≥ 0`. `rec0` is the default-constructed record.
Using `attenuation` or `scattered` when `scatter` left them unset is `none`. -/
def rayColor (world : World R S) (background : Vec R 3) (rec0 : HitRecord R) : ℕ → S → Ray R → Option (Shade R S)
  | 0, s, _ => some ⟨![0, 0, 0], s, 0⟩
  | depth + 1, s, r =>
    match world s r (1000 * eps) inf rec0 with
    | none => none
    | some (none, _, s) => some ⟨background, s, 1⟩
    | some (some m, rec, s) =>
      match m.scatter s r rec with
      | none => none
      | some (sc, s) =>
        if sc.ok then
          match sc.attenuation, sc.ray with
          | some a, some q =>
            match rayColor world background rec0 depth s q with
            | none => none
            | some c => some ⟨m.emitted rec + fun i => c.color i * a i, c.state, c.queries + 1⟩
          | _, _ => none
        else some ⟨m.emitted rec, s, 1⟩

/-- ray_color.hpp:9-33: the depth is an `int`; it is not positive at the end (line 11). -/
def rayColorInt (world : World R S) (background : Vec R 3) (rec0 : HitRecord R) (depth : ℤ) (s : S) (r : Ray R) : Option (Shade R S) :=
  rayColor world background rec0 depth.toNat s r

/-! ## camera -/

/-- camera.hpp:44-48, the members of `camera<Real>`. -/
structure Camera (R : Type) where
  /-- `origin_` -/
  origin : Vec R 3
  /-- `lower_left_corner_` -/
  llc : Vec R 3
  /-- `horizontal_` -/
  horizontal : Vec R 3
  /-- `vertical_` -/
  vertical : Vec R 3
  /-- `lookat_` -/
  lookat : Vec R 3

namespace Camera

/-- camera.hpp:11-30, the constructor. -/
def make (lookfrom lookat up : Vec R 3) (vfov aspect : R) : Camera R :=
  let theta := vfov * pi / 180
  let h := tan (theta / 2)
  let vh := 2 * h
  let vw := aspect * vh
  let w := Vec.normalize (lookfrom - lookat)
  let u := Vec.normalize (cross up w)
  let v := cross w u
  let hor := vw •. u
  let ver := vh •. v
  ⟨lookfrom, lookfrom - hor /. 2 - ver /. 2 - w, hor, ver, lookat⟩

/-- camera.hpp:32-34, `get_ray(u, v)`. -/
def getRay (c : Camera R) (u v : R) : Ray R := ⟨c.origin, c.llc + u •. c.horizontal + v •. c.vertical - c.origin⟩

/-- camera.hpp:36-41, `backlight()`. -/
def backlight (c : Camera R) : Vec R 3 × Vec R 3 := (2 •. c.origin - c.lookat, Vec.normalize (c.lookat - c.origin))

end Camera
end DRT
