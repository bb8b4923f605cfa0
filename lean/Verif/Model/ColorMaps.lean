import Verif.Model.ColorTables
import Verif.Model.Vec

/-! # Model of `include/drt/color_maps.hpp` -/

namespace DRT
open Scalar Vec

variable {R : Type} [Scalar R]

/-- color_maps.hpp:9-15, `grayscale`. -/
def grayscale (scalar : R) : Vec R 3 :=
  let s := clamp scalar 0 1
  ![s, s, s]

/-- An entry of a table, `table[i]`, or `none` (undefined behaviour) if the index is not in range. -/
def entry (table : List ℕ) (i : ℤ) : Option R :=
  if 0 ≤ i then table[i.toNat]?.map fun (n : ℕ) => lit ((n : ℚ) / 10 ^ 20) else none

/-- color_maps.hpp:40-42 and the corresponding lines: one channel of the result. -/
def channelAt (table : List ℕ) (i : ℤ) (t : R) : Option R :=
  match entry table i, entry table (i + 1) with
  | some a, some b => some ((1 - t) * a + t * b)
  | _, _ => none

/-- color_maps.hpp:29-43, 55-69, 81-95, 107-121, 133-147, 159-173, 185-199: the common body of the seven maps, for their three tables.
The conversions to `int64_t` and then to `int` are `toInt`, with `none` if the value is out of the range of `int`. -/
def tableMap (red green blue : List ℕ) (scalar : R) : Option (Vec R 3) :=
  let scalar := clamp scalar 0 1
  if eq scalar 1 then
    match entry red (red.length - 1), entry green (green.length - 1), entry blue (blue.length - 1) with
    | some r, some g, some b => some ![r, g, b]
    | _, _, _ => none
  else
    let s := 255 * scalar
    let ii := floor s
    let t := s - ii
    match toInt ii with
    | none => none
    | some i =>
      if -2 ^ 31 ≤ i ∧ i < 2 ^ 31 then
        match channelAt red i t, channelAt green i t, channelAt blue i t with
        | some r, some g, some b => some ![r, g, b]
        | _, _, _ => none
      else none

namespace ColorTables

/-- color_maps.hpp:29-43, `plasma`. -/
def plasma : R → Option (Vec R 3) := tableMap plasma_r plasma_g plasma_b
/-- color_maps.hpp:55-69, `viridis`. -/
def viridis : R → Option (Vec R 3) := tableMap viridis_r viridis_g viridis_b
/-- color_maps.hpp:81-95, `inferno`. -/
def inferno : R → Option (Vec R 3) := tableMap inferno_r inferno_g inferno_b
/-- color_maps.hpp:107-121, `blackbody`. -/
def blackbody : R → Option (Vec R 3) := tableMap blackbody_r blackbody_g blackbody_b
/-- color_maps.hpp:133-147, `kindlmann`. -/
def kindlmann : R → Option (Vec R 3) := tableMap kindlmann_r kindlmann_g kindlmann_b
/-- color_maps.hpp:159-173, `extended_kindlmann`. -/
def extendedKindlmann : R → Option (Vec R 3) := tableMap extended_kindlmann_r extended_kindlmann_g extended_kindlmann_b
/-- color_maps.hpp:185-199, `smooth_cool_warm`. -/
def smoothCoolWarm : R → Option (Vec R 3) := tableMap smooth_cool_warm_r smooth_cool_warm_g smooth_cool_warm_b

end ColorTables
end DRT
