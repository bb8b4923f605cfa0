import Verif.Model.Hittable
import Verif.Model.Pcg

/-!
# Model of the textures, the materials and `constant_medium`

A texture is the function computed by its `value` (it is `const`). The materials that own a `std::mt19937_64` receive the
numbers drawn from it as arguments (`draw`), so a theorem about all arguments is about all generators. The materials that
own a `pcg32_random_t` have its state as an argument and return the new state.
-/

namespace DRT
open Scalar Vec

variable {R : Type} [Scalar R]

/-- texture.hpp:10-14, the virtual function `value(hr)`. -/
abbrev Texture (R : Type) := HitRecord R → Vec R 3

/-- texture.hpp:16-33, `solid_color(c)`. The default constructor, which leaves the colour uninitialised, is left out. -/
def solidColor (c : Vec R 3) : Texture R := fun _ => c

/-- texture.hpp:35-48, `lambda_texture(f)`. -/
def lambdaTexture (f : HitRecord R → Vec R 3) : Texture R := fun hr => f hr

/-- checker_texture.hpp:20-27, `checker_texture(even, odd)`. -/
def checkerTexture (even odd : Texture R) : Texture R := fun hr =>
  if lt (sin (10 * hr.p 0) * sin (10 * hr.p 1) * sin (10 * hr.p 2)) 0 then odd hr else even hr

/-- What a call of `scatter` yields: the returned flag and the values written to `attenuation` and `scattered`; `none`
is a variable left as it was. -/
structure Scattered (R : Type) where
  /-- the returned flag -/
  ok : Bool
  /-- `attenuation` -/
  attenuation : Option (Vec R 3)
  /-- `scattered` -/
  ray : Option (Ray R)

/-- material.hpp:16-18, the default `emitted(hr)`. -/
def Material.emittedDefault (_ : HitRecord R) : Vec R 3 := ![0, 0, 0]

/-! ## diffuse_light -/

/-- diffuse_light.hpp:16-20, `scatter`. -/
def DiffuseLight.scatter (_ : Ray R) (_ : HitRecord R) : Scattered R := ⟨false, none, none⟩

/-- diffuse_light.hpp:22-25, `emitted(hr)`. -/
def DiffuseLight.emitted (emit : Texture R) (hr : HitRecord R) : Vec R 3 := emit hr

/-! ## lambertian -/

/-- lambertian.hpp:38-42, one body of the loop: the vector drawn and the new generator. -/
def Lambertian.draw (g : Pcg) : Vec R 3 × Pcg :=
  let a := Pcg.real01 g
  let b := Pcg.real01 a.2
  let c := Pcg.real01 b.2
  (![2 * a.1 - 1, 2 * b.1 - 1, 2 * c.1 - 1], c.2)

/-- lambertian.hpp:36-44, `random_unit_vector()`; `none` means that more than `fuel` bodies are needed. -/
def Lambertian.randomUnitVector : ℕ → Pcg → Option (Vec R 3 × Pcg)
  | 0, _ => none
  | fuel + 1, g =>
    let d : Vec R 3 × Pcg := draw g
    if gt (squaredNorm d.1) 1 then randomUnitVector fuel d.2 else some d

/-- lambertian.hpp:46-52, `random_in_hemisphere(normal)`. -/
def Lambertian.randomInHemisphere (fuel : ℕ) (g : Pcg) (normal : Vec R 3) : Option (Vec R 3 × Pcg) :=
  match randomUnitVector fuel g with
  | none => none
  | some (v, g) => some (if gt (dot v normal) 0 then v else -v, g)

/-- lambertian.hpp:23-34, `scatter`. -/
def Lambertian.scatter (albedo : Texture R) (fuel : ℕ) (g : Pcg) (_ : Ray R) (rec : HitRecord R) : Option (Scattered R × Pcg) :=
  match randomInHemisphere fuel g rec.normal with
  | none => none
  | some (h, g) =>
    let d := rec.normal + h
    let d := if lt (squaredNorm d) (Scalar.sqrt eps) then rec.normal else d
    some (⟨true, some (albedo rec), some ⟨rec.p, d⟩⟩, g)

/-! ## isotropic -/

/-- isotropic.hpp:36-44, `random_in_unit_sphere()`; `draw` holds the three normal deviates. -/
def Isotropic.randomInUnitSphere (draw : Vec R 3) : Vec R 3 := divAssign draw (Vec.norm draw)

/-- isotropic.hpp:20-27, `scatter`. -/
def Isotropic.scatter (albedo : Texture R) (draw : Vec R 3) (_ : Ray R) (rec : HitRecord R) : Scattered R :=
  ⟨true, some (albedo rec), some ⟨rec.p, randomInUnitSphere draw⟩⟩

/-! ## metal -/

/-- metal.hpp:18-27, `scatter`. -/
def Metal.scatter (albedo : Texture R) (r : Ray R) (rec : HitRecord R) : Scattered R :=
  let reflected := reflect (Vec.normalize r.dir) rec.normal
  ⟨gt (dot reflected rec.normal) 0, some (albedo rec), some ⟨rec.p, reflected⟩⟩

/-! ## dielectric -/

/-- dielectric.hpp:12-20, `refract(uv, n, etai_over_etat)`. -/
def refract (uv n : Vec R 3) (eta : R) : Vec R 3 :=
  let cosTheta := Scalar.min (dot (-uv) n) 1
  let perp := eta •. (uv + cosTheta •. n)
  let par := (-Scalar.sqrt (Scalar.abs (1 - squaredNorm perp))) •. n
  perp + par

/-- dielectric.hpp:67-74, `reflectance(cosine, ref_idx)`. -/
def Dielectric.reflectance (cosine idx : R) : R :=
  let r0 := (1 - idx) / (1 + idx)
  let r0 := r0 * r0
  r0 + (1 - r0) * powi (1 - cosine) 5

/-- dielectric.hpp:33-56, `scatter`. `draw` is the number `dis_(gen_)`; when line 49 does not draw (short circuit), it is
not used. -/
def Dielectric.scatter (ir draw : R) (r : Ray R) (rec : HitRecord R) : Scattered R :=
  let ratio := if rec.frontFace then 1 / ir else ir
  let unit := Vec.normalize r.dir
  let cosTheta := fmin (dot (-unit) rec.normal) 1
  let sinTheta := Scalar.sqrt (1 - cosTheta * cosTheta)
  let dir := if gt (ratio * sinTheta) 1 || gt (reflectance cosTheta ratio) draw then reflect unit rec.normal
    else refract unit rec.normal ratio
  ⟨true, some ![1, 1, 1], some ⟨rec.p, dir⟩⟩

/-- dielectric.hpp:58-61, `emitted(hr)`. -/
def Dielectric.emitted (emit : Texture R) (hr : HitRecord R) : Vec R 3 := emit hr

/-! ## constant_medium -/

/-- constant_medium.hpp:34-37, the members of `constant_medium<Real>` that `hit` uses. -/
structure ConstantMedium (R : Type) where
  /-- `boundary_` -/
  boundary : Hittable R
  /-- `neg_inv_density_` -/
  negInvDensity : R

namespace ConstantMedium

/-- constant_medium.hpp:15-19, the constructor. -/
def make (b : Hittable R) (density : R) : ConstantMedium R := ⟨b, -1 / density⟩

/-- constant_medium.hpp:53-73: after the two queries of the boundary, which reported `t1` and `t2`. `draw` is the number
`dis_(gen_)`. -/
def finish (m : ConstantMedium R) (draw : R) (r : Ray R) (tmin tmax t1 t2 : R) (rec : HitRecord R) : Bool × HitRecord R :=
  let t1 := if lt t1 tmin then tmin else t1
  let t2 := if gt t2 tmax then tmax else t2
  if ge t1 t2 then (false, rec)
  else
    let t1 := if lt t1 0 then 0 else t1
    let len := Vec.norm r.dir
    let inside := (t2 - t1) * len
    let dist := m.negInvDensity * log draw
    if gt dist inside then (false, rec)
    else
      let t := t1 + dist / len
      (true, { rec with t := t, p := r.at t, normal := ![1, 0, 0], frontFace := true })

/-- constant_medium.hpp:41-75, `hit`. `rec1` and `rec2` are the default-constructed local records. -/
def hit (m : ConstantMedium R) (draw : R) (rec1 rec2 : HitRecord R) (r : Ray R) (tmin tmax : R) (rec : HitRecord R) :
    Bool × HitRecord R :=
  let h1 := m.boundary.hit r (-inf) inf rec1
  if h1.1 then
    let h2 := m.boundary.hit r (h1.2.t + 100 * eps) inf rec2
    if h2.1 then m.finish draw r tmin tmax h1.2.t h2.2.t rec else (false, rec)
  else (false, rec)

/-- constant_medium.hpp:23-25, `bounding_box`. -/
def bbox (m : ConstantMedium R) : Bool × AABB R := m.boundary.bbox

end ConstantMedium
end DRT
