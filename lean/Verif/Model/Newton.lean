import Verif.Model.Bounds
import Verif.Model.Matrix
import Verif.Model.Roots

/-!
# Model of `include/drt/newton.hpp` and `include/drt/halley.hpp`

A `std::function` argument is a Lean function (it has no side effect and returns the same value for the same argument).
`fuel` bounds the scanning loop of `bisect`, the only loop that may not end; `none` means that the fuel ran out.
-/

namespace DRT
open Scalar Vec

variable {R : Type} [Scalar R] {n : ℕ}

/-- newton.hpp:19-25 and halley.hpp:19-26, `bisect_backup(f, tmin, tmax)`; `g` is the lambda that drops the
derivatives. -/
def bisectBackup (g : R → R) (fuel : ℕ) (tmin tmax : R) : Option R :=
  match bisect g fuel tmin tmax with
  | none => none
  | some (a, b) => some ((a + b) / 2)

namespace Newton1

/-- newton.hpp:61 and 64, the test `abs(y) > eps*abs(t*dydt)`. -/
def unconverged (t y dy : R) : Bool := gt (Scalar.abs y) (eps * Scalar.abs (t * dy))

/-- newton.hpp:45-53: the update of `t` in one loop body. -/
def next (f : R → R × R) (fuel : ℕ) (tmin tmax t y dy : R) : Option R :=
  if eq dy 0 then bisectBackup (fun x => (f x).1) fuel tmin tmax
  else
    let t := t - y / dy
    if lt t tmin || gt t tmax then bisectBackup (fun x => (f x).1) fuel tmin tmax else some t

/-- newton.hpp:40-61: the loop, with `k` more repetitions allowed after this body. `inl t` is the `return t` of
line 42, `inr t` is normal exit. -/
def loop (f : R → R × R) (fuel : ℕ) (tmin tmax : R) : ℕ → R → R → R → Option (R ⊕ R)
  | k, t, y, dy =>
    if eq y 0 then some (.inl t)
    else match next f fuel tmin tmax t y dy with
      | none => none
      | some t' =>
        if unconverged t' (f t').1 (f t').2 then
          match k with
          | 0 => some (.inr t')
          | k + 1 => loop f fuel tmin tmax k t' (f t').1 (f t').2
        else some (.inr t')

end Newton1

/-- newton.hpp:28-68, `newton(f, tmin, tmax)`: at most 33 loop bodies, then the residual test of line 64. -/
def newton1 (f : R → R × R) (fuel : ℕ) (tmin tmax : R) : Option R :=
  match Newton1.loop f fuel tmin tmax 32 tmin (f tmin).1 (f tmin).2 with
  | none => none
  | some (.inl t) => some t
  | some (.inr t) =>
    if Newton1.unconverged t (f t).1 (f t).2 then bisectBackup (fun x => (f x).1) fuel tmin tmax else some t

namespace Halley1

/-- halley.hpp:47-70: the update of `t` in one loop body. -/
def next (f : R → R × R × R) (fuel : ℕ) (tmin tmax t y dy d2y : R) : Option R :=
  let backup := bisectBackup (fun x => (f x).1) fuel tmin tmax
  if eq dy 0 then do
    let t ← if eq d2y 0 then backup else some t
    let hsq := -2 * y / d2y
    let t ← if lt hsq 0 then backup else some t
    let h := Scalar.sqrt hsq
    let t := t - h
    if gt t tmax || lt t tmin then return t + 2 * h else return t
  else
    let h := -2 * y * dy / (2 * dy * dy - y * d2y)
    let t := t + h
    if lt t tmin || gt t tmax then backup else some t

/-- halley.hpp:43-75: the loop, with `k` more repetitions allowed after this body. `inl t` is the `return t` of
line 45. -/
def loop (f : R → R × R × R) (fuel : ℕ) (tmin tmax : R) : ℕ → R → R → R → R → Option (R ⊕ R)
  | k, t, y, dy, d2y =>
    if eq y 0 then some (.inl t)
    else match next f fuel tmin tmax t y dy d2y with
      | none => none
      | some t' =>
        if Newton1.unconverged t' (f t').1 (f t').2.1 then
          match k with
          | 0 => some (.inr t')
          | k + 1 => loop f fuel tmin tmax k t' (f t').1 (f t').2.1 (f t').2.2
        else some (.inr t')

end Halley1

/-- halley.hpp:31-82, `halley(f, tmin, tmax)`. -/
def halley1 (f : R → R × R × R) (fuel : ℕ) (tmin tmax : R) : Option R :=
  match Halley1.loop f fuel tmin tmax 32 tmin (f tmin).1 (f tmin).2.1 (f tmin).2.2 with
  | none => none
  | some (.inl t) => some t
  | some (.inr t) =>
    if Newton1.unconverged t (f t).1 (f t).2.1 then bisectBackup (fun x => (f x).1) fuel tmin tmax else some t

/-- newton.hpp:165-176 and halley.hpp:142-153: the expected residual `max_i eps * sum_j |J(i,j) guess[j]|`. -/
def expectedResidual (J : Mat R n n) (x : Vec R n) : R :=
  Fin.foldl n (fun er i =>
    let row := loopSum n (fun j => Scalar.abs (J i j * x j)) * eps
    if gt row er then row else er) 0

namespace NewtonN

/-- newton.hpp:83-87: the variables of the loop. `bound` carries the mutable generator state. The fields `bodies` and
`restarts` do not exist in the code: they count loop bodies and calls of `bound.random()`. -/
structure State (R : Type) (n : ℕ) where
  /-- `guess` -/
  guess : Vec R n
  /-- `v` -/
  v : Vec R n
  /-- `J` -/
  J : Mat R n n
  /-- `g` -/
  g : R
  /-- `expected_residual` -/
  expected : R
  /-- `left_domain` -/
  left : ℕ
  /-- `bound` -/
  bound : Bounds R n
  /-- number of loop bodies entered -/
  bodies : ℕ
  /-- number of calls of `bound.random()` -/
  restarts : ℕ

/-- newton.hpp:98-106: the largest step towards `newguess` that stays inside. -/
def lambdaMax (b : Bounds R n) (guess dw newguess : Vec R n) : R :=
  Fin.foldl n (fun l i =>
    let l := if lt (newguess i) (b.box i).1 then Scalar.min (((b.box i).1 - guess i) / dw i) l else l
    if gt (newguess i) (b.box i).2 then Scalar.min (((b.box i).2 - guess i) / dw i) l else l) 1

/-- newton.hpp:136-159: evaluation at the new guess, backtracking and the second kind of random restart.
`dw` is the (possibly shortened) step and `v`, `J`, `g`, `guess` are still the old values.
`none` is a failed assertion. Line 157 uses the old `v`. -/
def advance (f : Vec R n → Vec R n × Mat R n n) (s : State R n) (dw : Vec R n) : Option (State R n) :=
  let accept (x : Vec R n) (gnew : R) (b : Bounds R n) (r : ℕ) : State R n :=
    { s with guess := x, v := (f x).1, J := (f x).2, g := gnew, expected := expectedResidual (f x).2 x,
             bound := b, restarts := r }
  let x1 := s.guess + dw
  let g1 := squaredNorm (f x1).1 / 2
  if gt g1 s.g then
    let gp := dot (Mat.mulVec s.J dw) s.v
    let lambda := -gp / (2 * (g1 - s.g - gp))
    let x2 := s.guess + lambda •. dw
    let g2 := squaredNorm (f x2).1 / 2
    if gt g2 s.g then
      let r := s.bound.random
      if s.bound.contains r.1 then some (accept r.1 (squaredNorm s.v / 2) r.2 (s.restarts + 1)) else none
    else some (accept x2 g2 s.bound s.restarts)
  else some (accept x1 g1 s.bound s.restarts)

/-- newton.hpp:89-176: one loop body up to the loop test. `inr` is the `return` of line 121. `none` is a failed
assertion or an indeterminate value read by `solve`. -/
def body (solve : Mat R n n → Vec R n → Option (Vec R n)) (f : Vec R n → Vec R n × Mat R n n) (s₀ : State R n) :
    Option (State R n ⊕ State R n) :=
  let s := { s₀ with bodies := s₀.bodies + 1 }
  match solve s.J (-s.v) with
  | none => none
  | some dw =>
    let newguess := s.guess + dw
    if s.bound.contains newguess then (advance f s dw).map .inl
    else
      let l := lambdaMax s.bound s.guess dw newguess
      if le l (lit (1 / 10)) then
        let r := s.bound.random
        if s.bound.contains r.1 then
          let s := { s with guess := r.1, bound := r.2, left := s.left + 1, restarts := s.restarts + 1 }
          if s.left > 6 then some (.inr s)
          else some (.inl { s with v := (f r.1).1, J := (f r.1).2, g := squaredNorm (f r.1).1 / 2 })
        else none
      else if le l 1 then (advance f s (l •. dw)).map .inl
      else none

end NewtonN

/-- The result of the `n`-dimensional `newton`: the returned vector `x` and the generator state in `bound`.
The other fields are observations: the last value of `expected_residual`, the number of loop bodies, the final
`left_domain` and the number of random restarts. -/
structure NewtonOut (R : Type) (n : ℕ) where
  /-- the returned vector -/
  x : Vec R n
  /-- `expected_residual` at exit -/
  expected : R
  /-- number of loop bodies -/
  bodies : ℕ
  /-- `left_domain` at exit -/
  left : ℕ
  /-- number of calls of `bound.random()` -/
  restarts : ℕ
  /-- `bound` after the call -/
  bound : Bounds R n

namespace NewtonN

/-- The observations made of a final state, with the returned vector. -/
def State.out (s : State R n) (x : Vec R n) : NewtonOut R n := ⟨x, s.expected, s.bodies, s.left, s.restarts, s.bound⟩

/-- newton.hpp:185-190: the final test. -/
def finish (s : State R (n + 1)) : NewtonOut R (n + 1) :=
  if le (maxNorm s.v) s.expected then s.out s.guess else s.out Vec.nans

/-- newton.hpp:88-180: the loop; `k` is the number of further bodies that `i++ < max_iterations` allows. -/
def loop (solve : Mat R (n + 1) (n + 1) → Vec R (n + 1) → Option (Vec R (n + 1)))
    (f : Vec R (n + 1) → Vec R (n + 1) × Mat R (n + 1) (n + 1)) : ℕ → State R (n + 1) → Option (NewtonOut R (n + 1))
  | k, s =>
    match body solve f s with
    | none => none
    | some (.inr s') => some (s'.out Vec.nans)
    | some (.inl s') =>
      if gt (maxNorm s'.v) s'.expected then
        match k with
        | 0 => some (finish s')
        | k + 1 => loop solve f k s'
      else some (finish s')

/-- newton.hpp:83-87: the state before the loop. -/
def start (f : Vec R n → Vec R n × Mat R n n) (b : Bounds R n) (guess : Vec R n) : State R n :=
  { guess := guess, v := (f guess).1, J := (f guess).2, g := squaredNorm (f guess).1 / 2, expected := 0, left := 0,
    bound := b, bodies := 0, restarts := 0 }

end NewtonN

/-- newton.hpp:72-192, `newton(f, bound, guess, max_iterations)` for any implementation `solve` of `matrix::solve`.
The loop counter `int i` is an unbounded integer here. -/
def newtonN (solve : Mat R (n + 1) (n + 1) → Vec R (n + 1) → Option (Vec R (n + 1)))
    (f : Vec R (n + 1) → Vec R (n + 1) × Mat R (n + 1) (n + 1)) (b : Bounds R (n + 1)) (guess : Vec R (n + 1))
    (maxIter : ℤ) : Option (NewtonOut R (n + 1)) :=
  NewtonN.loop solve f (maxIter - 1).toNat (NewtonN.start f b guess)

/-- newton.hpp:72-192 in dimension 2 (`matrix::solve` of matrix.hpp:157-179). -/
def newton2 (f : Vec R 2 → Vec R 2 × Mat R 2 2) (b : Bounds R 2) (guess : Vec R 2) (maxIter : ℤ) :
    Option (NewtonOut R 2) :=
  newtonN (fun M v => some (Mat.solve2 M v)) f b guess maxIter

/-- newton.hpp:72-192 in dimension 3 (`matrix::solve` of matrix.hpp:180-274). -/
def newton3 (f : Vec R 3 → Vec R 3 × Mat R 3 3) (b : Bounds R 3) (guess : Vec R 3) (maxIter : ℤ) :
    Option (NewtonOut R 3) :=
  newtonN Mat.solve3 f b guess maxIter

/-- tensor.hpp:25-36, the whole vector `H(x, y)`; `none` if some component reads outside the array. -/
def Tensor.contractVec {p r c : ℕ} (T : Tensor R p r c) (x : Vec R c) (y : Vec R r) : Option (Vec R p) :=
  if (List.finRange p).all fun i => (T.contract x y i).isSome then some fun i => (T.contract x y i).getD nan else none

namespace HalleyN

/-- halley.hpp:94-103: the variables of the loop; `bodies` counts loop bodies and is not in the code. -/
structure State (R : Type) (n : ℕ) where
  /-- `guess` -/
  guess : Vec R n
  /-- `v` -/
  v : Vec R n
  /-- `J` -/
  J : Mat R n n
  /-- `H` -/
  H : Tensor R n n n
  /-- `expected_residual` -/
  expected : R
  /-- `randomizations` -/
  randomizations : ℕ
  /-- number of calls of `bound.random()` -/
  restarts : ℕ
  /-- `bound`, a copy of the caller's object -/
  bound : Bounds R n
  /-- number of loop bodies entered -/
  bodies : ℕ

/-- halley.hpp:113-120: the rational update. -/
def newguess (guess a b : Vec R n) : Vec R n := fun i =>
  if eq (a i + b i / 2) 0 then guess i + a i else guess i + a i * a i / (a i + b i / 2)

/-- halley.hpp:105-153: one loop body up to the loop test. `inr` is the `return` of line 128. `g` is computed but never
used, so it is left out. -/
def body (solve : Mat R n n → Vec R n → Option (Vec R n)) (f : Vec R n → Vec R n × Mat R n n × Tensor R n n n)
    (s₀ : State R n) : Option (State R n ⊕ State R n) := do
  let s := { s₀ with bodies := s₀.bodies + 1 }
  let a ← solve s.J (-s.v)
  let Haa ← s.H.contractVec a a
  let b ← solve s.J Haa
  let x := newguess s.guess a b
  let step (x : Vec R n) (b : Bounds R n) (rd rs : ℕ) : State R n :=
    { s with guess := x, v := (f x).1, J := (f x).2.1, H := (f x).2.2, expected := expectedResidual (f x).2.1 x,
             randomizations := rd, restarts := rs, bound := b }
  if s.bound.contains x then return .inl (step x s.bound s.randomizations s.restarts)
  else if s.randomizations < 5 then
    return .inl (step s.bound.random.1 s.bound.random.2 (s.randomizations + 1) (s.restarts + 1))
  else return .inr { s with randomizations := s.randomizations + 1 }

/-- halley.hpp:161-166: the final test; the result is the returned vector with the final variables. -/
def finish (s : State R (n + 1)) : Vec R (n + 1) × State R (n + 1) :=
  (if le (maxNorm s.v) s.expected then s.guess else Vec.nans, s)

/-- halley.hpp:104-155: the loop; `k` is the number of further bodies that `i++ < max_iterations` allows. -/
def loop (solve : Mat R (n + 1) (n + 1) → Vec R (n + 1) → Option (Vec R (n + 1)))
    (f : Vec R (n + 1) → Vec R (n + 1) × Mat R (n + 1) (n + 1) × Tensor R (n + 1) (n + 1) (n + 1)) :
    ℕ → State R (n + 1) → Option (Vec R (n + 1) × State R (n + 1))
  | k, s =>
    match body solve f s with
    | none => none
    | some (.inr s') => some (Vec.nans, s')
    | some (.inl s') =>
      if gt (maxNorm s'.v) s'.expected then
        match k with
        | 0 => some (finish s')
        | k + 1 => loop solve f k s'
      else some (finish s')

/-- halley.hpp:94-103: the state before the loop. -/
def start (f : Vec R n → Vec R n × Mat R n n × Tensor R n n n) (b : Bounds R n) (guess : Vec R n) : State R n :=
  { guess := guess, v := (f guess).1, J := (f guess).2.1, H := (f guess).2.2, expected := 0, randomizations := 0,
    restarts := 0, bound := b, bodies := 0 }

end HalleyN

/-- halley.hpp:86-167, `halley(f, bound, guess, max_iterations)` for any implementation `solve` of `matrix::solve`.
The second component holds the final variables, for observation. -/
def halleyN (solve : Mat R (n + 1) (n + 1) → Vec R (n + 1) → Option (Vec R (n + 1)))
    (f : Vec R (n + 1) → Vec R (n + 1) × Mat R (n + 1) (n + 1) × Tensor R (n + 1) (n + 1) (n + 1))
    (b : Bounds R (n + 1)) (guess : Vec R (n + 1)) (maxIter : ℤ) : Option (Vec R (n + 1) × HalleyN.State R (n + 1)) :=
  HalleyN.loop solve f (maxIter - 1).toNat (HalleyN.start f b guess)

end DRT
