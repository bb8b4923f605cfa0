import Verif.Model.Render
import Verif.Model.ColorMaps

/-! # Model of `src/newton_fractal.cpp` -/

namespace DRT
open Scalar Vec

variable {R : Type} [Scalar R]

/-- `std::complex<Real>`. Simplification: products and quotients are computed by the textbook formulas; a C++ library may scale the operands or
repair infinities and NaNs. -/
structure Cx (R : Type) where
  /-- `real()` -/
  re : R
  /-- `imag()` -/
  im : R

namespace Cx

instance : Add (Cx R) := ⟨fun a b => ⟨a.re + b.re, a.im + b.im⟩⟩
instance : Sub (Cx R) := ⟨fun a b => ⟨a.re - b.re, a.im - b.im⟩⟩
instance : Mul (Cx R) := ⟨fun a b => ⟨a.re * b.re - a.im * b.im, a.re * b.im + a.im * b.re⟩⟩
instance : Div (Cx R) := ⟨fun a b =>
  ⟨(a.re * b.re + a.im * b.im) / (b.re * b.re + b.im * b.im), (a.im * b.re - a.re * b.im) / (b.re * b.re + b.im * b.im)⟩⟩

/-- `Real * std::complex<Real>` -/
def smul (c : R) (z : Cx R) : Cx R := ⟨c * z.re, c * z.im⟩
/-- `std::complex<Real> + Real` -/
def addReal (z : Cx R) (c : R) : Cx R := ⟨z.re + c, z.im⟩
/-- `std::complex<Real> - Real` -/
def subReal (z : Cx R) (c : R) : Cx R := ⟨z.re - c, z.im⟩
/-- `std::abs(std::complex<Real>)` -/
def abs (z : Cx R) : R := sqrt (z.re * z.re + z.im * z.im)

end Cx

namespace Fractal

/-- newton_fractal.cpp:10-16, `fifth_roots`. `std::pow(z, 4)` is a product. -/
def fifthRoots (z : Cx R) : Cx R × Cx R :=
  let v := z * z * z * z
  (Cx.subReal (v * z) 1, Cx.smul 5 v)

/-- newton_fractal.cpp:18-26, `g`. -/
def g (z : Cx R) : Cx R × Cx R :=
  let z2 := z * z
  let z3 := z * z2
  let z4 := z2 * z2
  (Cx.subReal (z4 * Cx.addReal z4 15) 16, Cx.smul 4 z3 * Cx.addReal (Cx.smul 2 z4) 15)

/-- newton_fractal.cpp:28-35, `fifth_roots_halley`. `std::pow(z, 3)` is a product. -/
def fifthRootsHalley (z : Cx R) : Cx R × Cx R × Cx R :=
  let zcb := z * z * z
  (Cx.subReal (zcb * z * z) 1, Cx.smul 5 zcb * z, Cx.smul 20 zcb)

/-- newton_fractal.cpp:37-47, `complex_newton(f, z)`; at most `fuel` bodies of the loop are run. -/
def complexNewton (f : Cx R → Cx R × Cx R) : ℕ → Cx R → Option (Cx R)
  | 0, _ => none
  | fuel + 1, z =>
    let y := (f z).1
    let dy := (f z).2
    let z := z - y / dy
    if le (Cx.abs y) (lit (7 / 5) * eps * Cx.abs (z * dy)) then some z else complexNewton f fuel z

/-- newton_fractal.cpp:49-59, `complex_halley(f, z)`; at most `fuel` bodies of the loop are run. -/
def complexHalley (f : Cx R → Cx R × Cx R × Cx R) : ℕ → Cx R → Option (Cx R)
  | 0, _ => none
  | fuel + 1, z =>
    let y := (f z).1
    let dy := (f z).2.1
    let ddy := (f z).2.2
    let z := z - Cx.smul 2 y * dy / (Cx.smul 2 dy * dy - y * ddy)
    if le (Cx.abs y) (eps * Cx.abs (z * dy) / 2) then some z else complexHalley f fuel z

/-- newton_fractal.cpp:61-93, `plane_pixel_map`. -/
structure PlaneMap (R : Type) where
  /-- `image_width_` -/
  width : ℕ
  /-- `image_height_` -/
  height : ℕ
  /-- `xmin_` -/
  xmin : R
  /-- `ymin_` -/
  ymin : R

/-- newton_fractal.cpp:73-77, `to_complex(i, j)`. -/
def PlaneMap.toComplex (m : PlaneMap R) (i j : ℕ) : Cx R :=
  ⟨m.xmin + 2 * Scalar.abs m.xmin * lit i / lit ((m.width : ℚ) - 1), m.ymin + 2 * Scalar.abs m.ymin * lit j / lit ((m.height : ℚ) - 1)⟩

/-- newton_fractal.cpp:79-86, `to_pixel(z)`; `none` is undefined behaviour, the conversion of a NaN or infinity to an integer. -/
def PlaneMap.toPixel (m : PlaneMap R) (z : Cx R) : Option (ℤ × ℤ) :=
  match llround (lit ((m.width : ℚ) - 1) * (z.re - m.xmin) / (2 * Scalar.abs m.xmin)),
    llround (lit ((m.height : ℚ) - 1) * (z.im - m.ymin) / (2 * Scalar.abs m.ymin)) with
  | some i, some j => some (i, j)
  | _, _ => none

/-- newton_fractal.cpp:108-113: the position of a root on the colour map. `M_PI` is taken to be of type `Real`. -/
def angle (rt : Cx R) : R :=
  let theta := atan2 rt.im rt.re
  let theta := if lt theta 0 then theta + 2 * pi else theta
  theta / (2 * pi)

/-- newton_fractal.cpp:117: the colour of a root. -/
def rootPixel (rt : Cx R) : Option (Fin 4 → UInt8) := (ColorTables.smoothCoolWarm (angle rt)).bind to8bit

/-- newton_fractal.cpp:104-117: the pixel `(i, j)`. -/
def pixel (fuel : ℕ) (m : PlaneMap R) (i j : ℕ) : Option (Fin 4 → UInt8) := (complexNewton g fuel (m.toComplex i j)).bind rootPixel

/-- newton_fractal.cpp:101-124: the pixels in the order in which they are stored. -/
def raster (fuel : ℕ) (m : PlaneMap R) : List (ℕ × ℕ) → Option (List ((ℕ × ℕ) × (Fin 4 → UInt8)))
  | [] => some []
  | (i, j) :: ts =>
    match pixel fuel m i j with
    | none => none
    | some p => (raster fuel m ts).map fun l => ((i, j), p) :: l

/-- newton_fractal.cpp:126-134: the roots to be marked. -/
def roots : List (Cx R) :=
  [⟨-1, 0⟩, ⟨1, 0⟩, ⟨0, 1⟩, ⟨0, -1⟩, ⟨sqrt 2, sqrt 2⟩, ⟨sqrt 2, -sqrt 2⟩, ⟨-sqrt 2, -sqrt 2⟩, ⟨-sqrt 2, sqrt 2⟩]

/-- newton_fractal.cpp:138-150: the pixels of the disc around `(ic, jc)`. -/
def disc (ic jc : ℤ) : List (ℤ × ℤ) :=
  ((List.range 14).flatMap fun (a : ℕ) => (List.range 14).map fun (b : ℕ) => (ic - 7 + a, jc - 7 + b)).filter fun p =>
    ¬ (p.1 - ic) * (p.1 - ic) + (p.2 - jc) * (p.2 - jc) > 7 * 7

/-- newton_fractal.cpp:144-148: the stores that make a pixel black. -/
def markStores (W H : ℕ) (l : List (ℤ × ℤ)) : List (ℤ × UInt8) :=
  l.flatMap fun p => [(Render.byteIndex W H p.1 p.2 + 0, 0), (Render.byteIndex W H p.1 p.2 + 1, 0), (Render.byteIndex W H p.1 p.2 + 2, 0),
    (Render.byteIndex W H p.1 p.2 + 3, 255)]

/-- newton_fractal.cpp:135-151: the stores of all marks. -/
def marks (m : PlaneMap R) : List (Cx R) → Option (List (ℤ × UInt8))
  | [] => some []
  | z :: zs =>
    match m.toPixel z with
    | none => none
    | some (ic, jc) => (marks m zs).map fun l => markStores m.width m.height (disc ic jc) ++ l

/-- newton_fractal.cpp:95-154, `main` without the progress bar: the image passed to `write_png`. -/
def image (fuel : ℕ) (m : PlaneMap R) : Option (List UInt8) :=
  match raster fuel m (Render.tasks m.width (List.range m.height)), marks m roots with
  | some l, some ws => (Render.stores m.width m.height l ++ ws).foldl Render.store (some (Render.blank m.width m.height))
  | _, _ => none

/-- newton_fractal.cpp:97-100: the map of `main`. -/
def mainMap : PlaneMap R := ⟨4096, 4096, -2, -2⟩

end Fractal
end DRT
