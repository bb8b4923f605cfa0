import Verif.Scalar.Basic
import Mathlib.Algebra.Notation.Pi.Basic
import Mathlib.Data.Fin.VecNotation

/-!
# Model of `include/drt/math.hpp`, `include/drt/vec.hpp` and `include/drt/ray.hpp`
-/

namespace DRT
open Scalar

variable {R : Type} [Scalar R] {n : ℕ}

/-- math.hpp:10-15, `difference_of_products(a,b,c,d)`, "Computes ab - cd". -/
def differenceOfProducts (a b c d : R) : R :=
  let cd := c * d
  let err := fma (-c) d cd
  let dop := fma a b (-cd)
  dop + err

/-- vec.hpp:17-104, `vec<Real, dimension>`: the storage `Real v_[dimension]` as a function on indices.
`operator+`, binary and unary `operator-` (vec.hpp:66-72, 151-168) are the pointwise operations of
function types. An index is always in range because it has type `Fin n`. -/
abbrev Vec (R : Type) (n : ℕ) := Fin n → R

namespace Vec

/-- vec.hpp:20-37, `vec(special_vec::NaNs)`. -/
protected def nans : Vec R n := fun _ => Scalar.nan

/-- vec.hpp:179-191, `operator*(t, v)` and `operator*(v, t)`; also `operator*=` (vec.hpp:81-86). -/
protected def smul (t : R) (v : Vec R n) : Vec R n := fun i => t * v i
@[inherit_doc] infixr:73 " •. " => Vec.smul

/-- vec.hpp:170-177, `operator/(v, t)`: divides every component. -/
def sdiv (v : Vec R n) (t : R) : Vec R n := fun i => v i / t
@[inherit_doc] infixl:70 " /. " => sdiv

/-- vec.hpp:88-90, `operator/=(t)`: multiplies by the reciprocal. -/
def divAssign (v : Vec R n) (t : R) : Vec R n := fun i => v i * (1 / t)

/-- vec.hpp:106-113, `squared_norm(v)`. -/
def squaredNorm (v : Vec R n) : R := loopSum n fun i => v i * v i

/-- vec.hpp:115-119, `norm(v)`. -/
protected def norm (v : Vec R n) : R := Scalar.sqrt (squaredNorm v)

/-- vec.hpp:121-132, `max_norm(v)`: the loop from index 1 with a strict comparison. -/
def maxNorm (v : Vec R (n + 1)) : R :=
  Fin.foldl n (fun m i => if gt (Scalar.abs (v i.succ)) m then Scalar.abs (v i.succ) else m)
    (Scalar.abs (v 0))

/-- vec.hpp:134-140, `normalize(v)`: divides in place by the norm. -/
protected def normalize (v : Vec R n) : Vec R n :=
  let t := Vec.norm v
  fun i => v i / t

/-- vec.hpp:142-149, `dot(v1, v2)`. -/
def dot (u v : Vec R n) : R := loopSum n fun i => u i * v i

/-- vec.hpp:193-197, `reflect(v, n)`. -/
def reflect (v nrm : Vec R n) : Vec R n := v - (2 * dot v nrm) •. nrm

/-- vec.hpp:199-209, `cross(u, v)`. -/
def cross (u v : Vec R 3) : Vec R 3 :=
  ![differenceOfProducts (u 1) (v 2) (u 2) (v 1),
    differenceOfProducts (u 2) (v 0) (u 0) (v 2),
    differenceOfProducts (u 0) (v 1) (u 1) (v 0)]

end Vec

/-- ray.hpp:7-30, `ray<Real>`. -/
structure Ray (R : Type) where
  /-- `origin()` -/
  origin : Vec R 3
  /-- `direction()` -/
  dir : Vec R 3

open Vec in
/-- ray.hpp:23-25, `ray::operator()(t)`. -/
def Ray.at (r : Ray R) (t : R) : Vec R 3 := r.origin + t •. r.dir

end DRT
