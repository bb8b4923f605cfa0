import Verif.Model.Bounds
import Verif.Model.Matrix
import Verif.Model.Roots

/-! # Model of `include/drt/ko_method.hpp` -/

namespace DRT
open Scalar Vec

variable {R : Type} [Scalar R]

namespace Ko

/-- ko_method.hpp:31: the call `h(u0, v0, J, H)` of the surface: the point, the matrix of first derivatives (only columns
0 and 1 are used) and the second derivatives. The surface is an arbitrary function. -/
abbrev Patch (R : Type) := R → R → Vec R 3 × Mat R 3 3 × Tensor R 3 2 2

/-- ko_method.hpp:28-29: the loop variables; `bound` carries the generator state and `bodies` counts loop bodies
(`i + 1` in the code). -/
structure State (R : Type) where
  /-- `u0` -/
  u : R
  /-- `v0` -/
  v : R
  /-- `randomizations` -/
  randomizations : ℕ
  /-- number of loop bodies entered -/
  bodies : ℕ
  /-- `bound` -/
  bound : Bounds R 3

/-- ko_method.hpp:40-46: the convergence test `|(P - O) × D|² < 4 eps²`. -/
def converged (P O D : Vec R 3) : Bool := lt (squaredNorm (cross (P - O) D)) (4 * eps * eps)

/-- ko_method.hpp:50-54: the result at a converged point. -/
def result (P O D : Vec R 3) (u v : R) (b : Bounds R 3) : Vec R 3 :=
  let t := dot (P - O) D / dot D D
  if lt t (b.box 2).1 || gt t (b.box 2).2 then Vec.nans else ![u, v, t]

/-- ko_method.hpp:158-167 and 181-190: restart from a random point, or give up (`inr`). -/
def randomize (s : State R) : State R ⊕ State R :=
  if s.randomizations > 20 then .inr { s with randomizations := s.randomizations + 1 }
  else
    let w := s.bound.random
    .inl { s with u := w.1 0, v := w.1 1, bound := w.2, randomizations := s.randomizations + 1 }

/-- ko_method.hpp:108-112: the sums over `H` for the second fundamental forms. -/
def form (H : Tensor R 3 2 2) (n : Vec R 3) (j k : ℕ) : Option R := do
  let h0 ← H.get 0 j k
  let h1 ← H.get 1 j k
  let h2 ← H.get 2 j k
  return 0 + h0 * n 0 + h1 * n 1 + h2 * n 2

/-- ko_method.hpp:155-208: choice between the roots of the quadratic. `uvt0 = (u', v')` direction, `pt = dot(PmO, tangent)`. -/
def choose (s : State R) (roots : List R) (uprime vprime pt dt : R) : Option (State R ⊕ State R) :=
  match roots with
  | [] => some (randomize s)
  | [r0, r1] =>
    let sol (r : R) : Vec R 3 := ![s.u + r * uprime, s.v + r * vprime, (r + pt) / dt]
    let c0 := s.bound.contains (sol r0)
    let c1 := s.bound.contains (sol r1)
    if !c0 && !c1 then some (randomize s)
    else
      let x := if !c0 then r1 else if !c1 then r0 else if lt (sol r1 2) (sol r0 2) then r1 else r0
      some (.inl { s with u := s.u + x * uprime, v := s.v + x * vprime })
  | _ => none

/-- ko_method.hpp:56-208: the part of the loop body after the convergence test fails. `inr` is a `return` of NaNs.
`none` is a use of indeterminate values (failed `inverse`). The call `abs(kappa_b)` of line 115 is taken to be the
floating-point absolute value; if only `int abs(int)` is visible there, it would truncate. -/
def step (h : Patch R) (O D : Vec R 3) (s : State R) : Option (State R ⊕ State R) :=
  let P := (h s.u s.v).1
  let J := (h s.u s.v).2.1
  let H := (h s.u s.v).2.2
  let PmO := P - O
  let planeNormal := Vec.normalize (cross PmO D)
  let su := Mat.column J 0
  let sv := Mat.column J 1
  let surfaceNormal := cross su sv
  if lt (squaredNorm surfaceNormal) (eps * eps) then some (.inr s)
  else
    let surfaceNormal := Vec.normalize surfaceNormal
    let tangent := cross planeNormal surfaceNormal
    if lt (squaredNorm tangent) (eps * eps) then some (.inr s)
    else do
      let tangent := Vec.normalize tangent
      let M : Mat R 2 2 := ![![dot su su, dot su sv], ![dot su sv, dot sv sv]]
      let Minv ← Mat.inverseVal2 M
      let w := Mat.mulVec Minv ![dot tangent su, dot tangent sv]
      let uprime := w 0
      let vprime := w 1
      let e ← form H surfaceNormal 0 0
      let f ← form H surfaceNormal 0 1
      let g ← form H surfaceNormal 1 1
      let kappaB := e * uprime * uprime + 2 * f * uprime * vprime + g * vprime * vprime
      if lt (Scalar.abs kappaB) (eps * eps) then
        let t := dot PmO surfaceNormal / dot D surfaceNormal
        let q := O + t •. D
        let qmP := q - P
        let w := Mat.mulVec Minv ![dot qmP su, dot qmP sv]
        return .inl { s with u := s.u + w 0, v := s.v + w 1 }
      else
        let costheta := dot surfaceNormal planeNormal
        if ge costheta 1 then return .inr s
        else
          let s_ := kappaB / (1 - costheta * costheta)
          let kappaN := s_ •. ((-costheta) •. planeNormal + surfaceNormal)
          let kappa := Vec.norm kappaN
          let n := kappaN /. kappa
          let a := kappa / 2
          let tmp := dot D n
          let dt := dot D tangent
          let b := -tmp / dt
          let c := tmp * dot (O - P) tangent / dt - dot (O - P) n
          choose s (quadraticRoots a b c) uprime vprime (dot PmO tangent) dt

/-- ko_method.hpp:30-234: the loop; `k` is the number of further bodies that `++i < 50` allows. The result is the
returned vector with the final variables. -/
def loop (h : Patch R) (O D : Vec R 3) : ℕ → State R → Option (Vec R 3 × State R)
  | k, s₀ =>
    let s := { s₀ with bodies := s₀.bodies + 1 }
    if converged (h s.u s.v).1 O D then some (result (h s.u s.v).1 O D s.u s.v s.bound, s)
    else match step h O D s with
      | none => none
      | some (.inr s') => some (Vec.nans, s')
      | some (.inl s') =>
        match k with
        | 0 => some (Vec.nans, s')
        | k + 1 => loop h O D k s'

end Ko

/-- ko_method.hpp:11-235, `ko_method(h, r, bound, u0, v0)`. -/
def koMethod (h : Ko.Patch R) (r : Ray R) (b : Bounds R 3) (u0 v0 : R) : Option (Vec R 3 × Ko.State R) :=
  let u := if isNaN u0 then ((b.box 0).1 + (b.box 0).2) / 2 else u0
  let v := if isNaN v0 then ((b.box 1).1 + (b.box 1).2) / 2 else v0
  Ko.loop h r.origin r.dir 49 { u := u, v := v, randomizations := 0, bodies := 0, bound := b }

end DRT
