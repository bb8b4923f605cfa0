import Verif.Model.Pcg
import Verif.Model.Vec
import Mathlib.Data.List.FinRange
import Mathlib.Logic.Function.Basic

/-! # Model of `include/drt/bounds.hpp` -/

namespace DRT
open Scalar

variable {R : Type} [Scalar R] {n : ℕ}

/-- bounds.hpp:138-140, the members of `bounds<Real, dimension>`. -/
structure Bounds (R : Type) (n : ℕ) where
  /-- `bounds_` -/
  box : Fin n → R × R
  /-- `pcg_` (mutable) -/
  pcg : Pcg

namespace Bounds

/-- bounds.hpp:13-52: the constructors. In dimensions 1 and 3 the order of each pair is asserted (`none` = abort);
in dimension 2 a wrong order is only reported on `std::cerr`. -/
def init (b : Fin n → R × R) : Option (Bounds R n) :=
  if n = 2 ∨ (List.finRange n).all (fun i => le (b i).1 (b i).2) then some ⟨b, ⟨1235123#64, 234121#64⟩⟩ else none

/-- bounds.hpp:54-62, `contains(v)`. -/
def contains (b : Bounds R n) (v : Vec R n) : Bool :=
  (List.finRange n).all fun i => !(lt (v i) (b.box i).1 || gt (v i) (b.box i).2)

/-- bounds.hpp:64-74, `contains(x, y)`; line 70 compares `x` with the upper end of the second interval. -/
def contains2 (b : Bounds R 2) (x y : R) : Bool :=
  if lt x (b.box 0).1 || gt x (b.box 0).2 then false
  else if lt y (b.box 1).1 || gt x (b.box 1).2 then false
  else true

/-- bounds.hpp:76-89, `contains(x, y, z)`; line 82 compares `x` with the upper end of the second interval. -/
def contains3 (b : Bounds R 3) (x y z : R) : Bool :=
  if lt x (b.box 0).1 || gt x (b.box 0).2 then false
  else if lt y (b.box 1).1 || gt x (b.box 1).2 then false
  else if lt z (b.box 2).1 || gt z (b.box 2).2 then false
  else true

/-- bounds.hpp:99-105, `center()`. -/
def center (b : Bounds R n) : Vec R n := fun i => ((b.box i).1 + (b.box i).2) / 2

/-- bounds.hpp:107-113, `volume()`. -/
def volume (b : Bounds R n) : R := Fin.foldl n (fun v i => v * ((b.box i).2 - (b.box i).1)) 1

/-- bounds.hpp:115-117, `empty()`. -/
def empty (b : Bounds R n) : Bool := le b.volume 0

/-- bounds.hpp:119-125, `random()`: one draw per component, in order. The vector starts uninitialised, here NaN;
every component is written. -/
def random (b : Bounds R n) : Vec R n × Bounds R n :=
  let r := Fin.foldl n (fun (s : Vec R n × Pcg) i =>
    let d := Pcg.real01 s.2
    (Function.update s.1 i (d.1 * ((b.box i).2 - (b.box i).1) + (b.box i).1), d.2)) (Vec.nans, b.pcg)
  (r.1, { b with pcg := r.2 })

end Bounds
end DRT
