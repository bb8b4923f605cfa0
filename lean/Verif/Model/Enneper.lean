import Verif.Model.Hittable
import Verif.Model.Newton

/-! # Model of `include/drt/enneper.hpp` -/

namespace DRT
open Scalar Vec

variable {R : Type} [Scalar R]

/-- enneper.hpp:110-112, the member of `enneper<Real>`. The message of the constructor at 30-36 and the counters at
16-20 are not modelled. -/
structure Enneper (R : Type) where
  /-- `radius_` -/
  radius : R

namespace Enneper

/-- enneper.hpp:50-56, `operator()(u, v)`. -/
def eval (u v : R) : Vec R 3 :=
  ![u * (1 - u * u / 3 + v * v), v * (1 - v * v / 3 + u * u), u * u - v * v]

/-- enneper.hpp:58-78, the matrix filled by `operator()(u, v, J)`. -/
def jac (u v : R) : Mat R 3 3 :=
  let p := eval u v
  ![![1 - p 2, 2 * u * v, nan],
    ![2 * u * v, 1 + p 2, nan],
    ![2 * u, -2 * v, nan]]

/-- enneper.hpp:82-102, the tensor filled by `operator()(u, v, J, H)`, assignment by assignment. -/
def hess (H : Tensor R 3 2 2) (u v : R) : Tensor R 3 2 2 :=
  ((((((((((((H.set 0 0 0 (-2 * u)).set 1 0 0 (2 * v)).set 2 0 0 2).set 0 0 1 (2 * v)).set 0 1 0 (2 * v)).set 1 0 1
    (2 * u)).set 1 1 0 (2 * u)).set 2 0 1 0).set 2 1 0 0).set 0 1 1 (2 * u)).set 1 1 1 (-2 * v)).set 2 1 1 (-2))

/-- enneper.hpp:104-107, `gaussian_curvature_bounds()`. -/
def curvatureBounds : R × R := (-4, -(4 : R) / powi 9 4)

/-- enneper.hpp:116-125, the function whose zero is sought: `(u, v, t) ↦ σ(u, v) - o - t d`, with its Jacobian. -/
def objective (o d : Vec R 3) (w : Vec R 3) : Vec R 3 × Mat R 3 3 :=
  let J := jac (w 0) (w 1)
  (eval (w 0) (w 1) - o - w 2 •. d,
    ![![J 0 0, J 0 1, -(d 0)], ![J 1 0, J 1 1, -(d 1)], ![J 2 0, J 2 1, -(d 2)]])

/-- bounds.hpp:91-97, assignment of the first two intervals through `operator[]`. -/
def setUV (b : Bounds R 3) (i j : R × R) : Bounds R 3 := { b with box := ![i, j, b.box 2] }

/-- enneper.hpp:139-141: `k` further calls of Newton's method from random starting points. `solve` is what `matrix::solve`
does; in the code it is `Mat.solve3`, in which reading an element that was never written is `none`. Other functions stand for runs
in which such an element happens to hold some value. -/
def randomStarts (solve : Mat R 3 3 → Vec R 3 → Option (Vec R 3)) (o d : Vec R 3) : ℕ → Bounds R 3 → Option (List (Vec R 3))
  | 0, _ => some []
  | k + 1, b => do
    let g := b.random
    let s ← newtonN solve (objective o d) g.2 g.1 16
    let ss ← randomStarts solve o d k s.bound
    return s.x :: ss

/-- enneper.hpp:143-153: the solution with the smallest `t` below `numeric_limits::max()`, the first one if there is
none. -/
def pick (first : Vec R 3) (sols : List (Vec R 3)) : Vec R 3 :=
  (sols.foldl (fun (s : Vec R 3 × R) sol => if lt (sol 2) s.2 then (sol, sol 2) else s) (first, big)).1

/-- enneper.hpp:114-154, `compute_uvt(o, d, t_min, t_max)`. The bounds object and its generator are local, so the
result depends on the arguments only. `none` is a failed assertion or an indeterminate value. -/
def computeUVT (solve : Mat R 3 3 → Vec R 3 → Option (Vec R 3)) (o d : Vec R 3) (tmin tmax : R) : Option (Vec R 3) := do
  let f := objective o d
  let b0 ← Bounds.init ![(-2, 0), (-2, 0), (tmin, tmax)]
  let s0 ← newtonN solve f b0 b0.center 16
  let b1 := setUV s0.bound (0, 2) (0, 2)
  let s1 ← newtonN solve f b1 b1.center 16
  let b2 := setUV s1.bound (-1, 1) (-1, 1)
  let s2 ← newtonN solve f b2 b2.center 16
  let b3 := setUV s2.bound (-2, 2) (-2, 2)
  let ss ← randomStarts solve o d 9 b3
  return pick s0.x (s0.x :: s1.x :: s2.x :: ss)

/-- enneper.hpp:189-192: the record after the parameters are stored. -/
def place (r : Ray R) (w : Vec R 3) (rec : HitRecord R) : HitRecord R :=
  { rec with t := w 2, p := r.at (w 2), u := w 0, v := w 1 }

/-- enneper.hpp:204-220: the normal and the fundamental forms. -/
def forms (r : Ray R) (rec : HitRecord R) : HitRecord R :=
  let u := rec.u
  let v := rec.v
  let du : Vec R 3 := ![1 - u * u + v * v, 2 * u * v, 2 * u]
  let dv : Vec R 3 := ![2 * u * v, 1 - v * v + u * u, -2 * v]
  let gradient := cross du dv
  let rc := { rec with gradMag := Vec.norm gradient }
  let rc := rc.setFaceNormal r (gradient /. Vec.norm gradient)
  { rc with E := squaredNorm du, F := 0, G := squaredNorm dv, e := 2, f := 0, g := -2 }

/-- enneper.hpp:178-223: the end of `hit` for the solver's answer `w`. -/
def finish (r : Ray R) (tmin tmax : R) (w : Vec R 3) (rec : HitRecord R) : Bool × HitRecord R :=
  if isNaN (w 0) then (false, rec)
  else if lt (w 2) tmin || gt (w 2) tmax then (false, rec)
  else
    let rc := place r w rec
    if gt (Vec.norm (rc.p - eval (w 0) (w 1))) (lit (1 / 100000)) then (false, rc)
    else (true, forms r rc)

/-- enneper.hpp:157-224, `hit(r, t_min, t_max, rec)`, for any implementation `solve` of `matrix::solve`. `none` is a failed
assertion or an indeterminate value in the solver. The literal `0.00001` is a `double` in the code. -/
def hitWith (solve : Mat R 3 3 → Vec R 3 → Option (Vec R 3)) (s : Enneper R) (r : Ray R) (tmin tmax : R) (rec : HitRecord R) :
    Option (Bool × HitRecord R) :=
  let oc := r.origin
  let a := squaredNorm r.dir
  let b := 2 * dot oc r.dir
  let c := squaredNorm oc - s.radius * s.radius
  match quadraticRoots a b c with
  | [r0, r1] =>
    if lt r1 tmin then some (false, rec)
    else if gt r0 tmax then some (false, rec)
    else
      let tmin := Scalar.max tmin r0
      let tmax := Scalar.min tmax r1
      (computeUVT solve r.origin r.dir tmin tmax).map fun w => finish r tmin tmax w rec
  | _ => some (false, rec)

/-- enneper.hpp:157-224, `hit(r, t_min, t_max, rec)` with the `solve` of the code. -/
def hit (s : Enneper R) (r : Ray R) (tmin tmax : R) (rec : HitRecord R) : Option (Bool × HitRecord R) :=
  hitWith Mat.solve3 s r tmin tmax rec

/-- enneper.hpp:227-232, `bounding_box`. -/
def bbox (s : Enneper R) : Bool × AABB R :=
  (true, ⟨![-s.radius, -s.radius, -s.radius], ![s.radius, s.radius, s.radius]⟩)

end Enneper
end DRT
