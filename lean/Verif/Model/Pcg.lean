import Verif.Scalar.Basic

/-! # Model of `include/drt/pcg.hpp` -/

namespace DRT
open Scalar

/-- pcg.hpp:9, `pcg32_random_t`. -/
structure Pcg where
  /-- `state` -/
  state : BitVec 64
  /-- `inc` -/
  inc : BitVec 64

namespace Pcg

/-- pcg.hpp:13-15: advancing the state. -/
def advance (g : Pcg) : Pcg := { g with state := g.state * 6364136223846793005#64 + (g.inc ||| 1#64) }

/-- pcg.hpp:16-19: the output computed from the old state.
`uint32_t` conversions are `setWidth 32`; the shift counts are reduced to natural numbers below 32. -/
def output (s : BitVec 64) : BitVec 32 :=
  let xorshifted : BitVec 32 := (((s >>> 18) ^^^ s) >>> 27).setWidth 32
  let rot : BitVec 32 := (s >>> 59).setWidth 32
  (xorshifted >>> rot.toNat) ||| (xorshifted <<< ((-rot) &&& 31#32).toNat)

/-- pcg.hpp:11-20, `pcg32_random_r(rng)`: the drawn value and the new generator. -/
def next (g : Pcg) : BitVec 32 × Pcg := (output g.state, g.advance)

variable {R : Type} [Scalar R]

/-- pcg.hpp:25-28, `pcg_real_01<Real>(rng)`. -/
def real01 (g : Pcg) : R × Pcg := (ldexp32 g.next.1.toNat, g.next.2)

end Pcg
end DRT
