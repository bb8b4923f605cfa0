import Verif.Model.RayColor

/-! # Model of `png.hpp`, `render_scene.hpp` and `progress_bar.hpp` -/

namespace DRT
open Scalar Vec

variable {R : Type} [Scalar R] {S : Type}

/-! ## png.hpp -/

/-- Conversion of a floating-point value to `uint8_t`; `none` is the undefined behaviour of a value out of range. -/
def toByte (x : R) : Option UInt8 :=
  match toInt x with
  | none => none
  | some z => if 0 ≤ z ∧ z < 256 then some (UInt8.ofNat z.toNat) else none

/-- png.hpp:19-22: one channel. -/
def channel (x : R) : Option UInt8 := toByte (255 * clamp (Scalar.sqrt x) 0 1)

/-- png.hpp:11-28, `to_8bit_rgba` for three channels. -/
def to8bit (v : Vec R 3) : Option (Fin 4 → UInt8) :=
  match channel (v 0), channel (v 1), channel (v 2) with
  | some r, some g, some b => some ![r, g, b, 255]
  | _, _, _ => none

/-- png.hpp:11-28, `to_8bit_rgba` for four channels: alpha is converted like the others. -/
def to8bit4 (v : Vec R 4) : Option (Fin 4 → UInt8) :=
  match channel (v 0), channel (v 1), channel (v 2), channel (v 3) with
  | some r, some g, some b, some a => some ![r, g, b, a]
  | _, _, _, _ => none

/-! ## render_scene.hpp: where the results go -/

namespace Render

/-- render_scene.hpp:47: the index of the first byte of a pixel. Integers are unbounded in the model. -/
def byteIndex (W H i j : ℤ) : ℤ := 4 * W * (H - 1 - j) + 4 * i

/-- render_scene.hpp:55 and 79: the index of a pixel in `cost`. -/
def costIndex (W H i j : ℤ) : ℤ := W * (H - 1 - j) + i

/-- A store `a[k] = x`; `none` is the undefined behaviour of an index out of range. -/
def store {α : Type} (a : Option (List α)) (w : ℤ × α) : Option (List α) :=
  match a with
  | none => none
  | some a => if 0 ≤ w.1 ∧ w.1 < a.length then some (a.set w.1.toNat w.2) else none

/-- render_scene.hpp:48-51: the stores to `img` of tasks `(i, j)` with their pixels, in the order in which the tasks are listed. -/
def stores (W H : ℕ) (l : List ((ℕ × ℕ) × (Fin 4 → UInt8))) : List (ℤ × UInt8) :=
  l.flatMap fun x =>
    [(byteIndex W H x.1.1 x.1.2 + 0, x.2 0), (byteIndex W H x.1.1 x.1.2 + 1, x.2 1),
      (byteIndex W H x.1.1 x.1.2 + 2, x.2 2), (byteIndex W H x.1.1 x.1.2 + 3, x.2 3)]

/-- render_scene.hpp:55: the stores to `cost` of tasks with their times. -/
def costStores (W H : ℕ) (l : List ((ℕ × ℕ) × R)) : List (ℤ × R) := l.map fun x => (costIndex W H x.1.1 x.1.2, x.2)

/-- render_scene.hpp:28: `img(4*image_width*image_height, 0)`. -/
def blank (W H : ℕ) : List UInt8 := List.replicate (4 * W * H) 0

/-! ## render_scene.hpp: what the tasks compute -/

/-- render_scene.hpp:14-29, the arguments: what the tasks read. -/
structure Scene (R S : Type) where
  /-- `image_width` -/
  width : ℕ
  /-- `image_height` -/
  height : ℕ
  /-- `background` -/
  background : Vec R 3
  /-- `cam` -/
  camera : Camera R
  /-- `world` -/
  world : World R S
  /-- `samples_per_pixel` -/
  samples : ℕ
  /-- the default-constructed record of `ray_color` -/
  rec0 : HitRecord R

/-- render_scene.hpp:24-26: the generator shared by all threads, as it is seeded. -/
def seed : Pcg := ⟨1235123#64, 234121#64⟩

/-- render_scene.hpp:41-42: the coordinate of a sample; `k` is `i` or `j`, `n` the width or height and `x` the random number. -/
def coordinate (k n : ℕ) (x : R) : R := (lit k + x) / lit ((n : ℚ) - 1)

/-- render_scene.hpp:41-44: the body of the loop over the samples; `none` if `ray_color` does not come back. -/
def sample (sc : Scene R S) (i j : ℕ) (st : Vec R 3 × Pcg × S) : Option (Vec R 3 × Pcg × S) :=
  let x := Pcg.real01 st.2.1
  let y := Pcg.real01 x.2
  let r := sc.camera.getRay (coordinate i sc.width x.1) (coordinate j sc.height y.1)
  match rayColor sc.world sc.background sc.rec0 8 st.2.2 r with
  | none => none
  | some c => some (st.1 + c.color, y.2, c.state)

/-- render_scene.hpp:40-45: the loop over the samples. -/
def sampleLoop (sc : Scene R S) (i j : ℕ) : ℕ → Vec R 3 × Pcg × S → Option (Vec R 3 × Pcg × S)
  | 0, st => some st
  | n + 1, st => (sample sc i j st).bind (sampleLoop sc i j n)

/-- render_scene.hpp:39-46: the task `(i, j)`: its pixel, and the generators afterwards. -/
def task (sc : Scene R S) (i j : ℕ) (g : Pcg × S) : Option ((Fin 4 → UInt8) × Pcg × S) :=
  match sampleLoop sc i j sc.samples (![0, 0, 0], g) with
  | none => none
  | some (c, g) => (to8bit (c /. lit sc.samples)).map fun p => (p, g)

/-- render_scene.hpp:30-58: tasks run one after the other in the given order, sharing the generator: the pixels, in that order. An actual run
may interleave the draws of the tasks in any other way and may even lose updates of the generator; running the rows in some order is
one of the possibilities. -/
def run (sc : Scene R S) : List (ℕ × ℕ) → Pcg × S → Option (List ((ℕ × ℕ) × (Fin 4 → UInt8)))
  | [], _ => some []
  | (i, j) :: ts, g =>
    match task sc i j g with
    | none => none
    | some (p, g) => (run sc ts g).map fun l => ((i, j), p) :: l

/-- render_scene.hpp:31-35: the tasks when the rows are run in the order `rows`. -/
def tasks (W : ℕ) (rows : List ℕ) : List (ℕ × ℕ) := rows.flatMap fun j => (List.range W).map fun i => (i, j)

/-- render_scene.hpp:28-58: the image when the rows are run in the order `rows`. -/
def image (sc : Scene R S) (rows : List ℕ) (s : S) : Option (List UInt8) :=
  match run sc (tasks sc.width rows) (seed, s) with
  | none => none
  | some l => (stores sc.width sc.height l).foldl store (some (blank sc.width sc.height))

/-! ## render_scene.hpp: the cost image -/

/-- render_scene.hpp:63-75: the extremes of the times. `cost` holds `double`s; the model has `Real` = `double` here. -/
def costRange (cost : List R) : R × R :=
  let m := cost.foldl (fun m t => (if lt t m.1 then t else m.1, if gt t m.2 then t else m.2)) (big, (0 : R))
  (if lt m.1 0 then 0 else m.1, m.2)

/-- render_scene.hpp:81: the scalar passed to the colour map for a pixel with time `t`. -/
def costScalar (cost : List R) (t : R) : R := (t - (costRange cost).1) / ((costRange cost).2 - (costRange cost).1)

/-- render_scene.hpp:91-92: `filename.substr(0, filename.size() - 4) + "_cost.png"`, with the subtraction modulo `2^64` of `size_t`. -/
def costFilename (name : List Char) : List Char := name.take ((name.length + (2 ^ 64 - 4)) % 2 ^ 64) ++ "_cost.png".toList

end Render

/-! ## progress_bar.hpp -/

/-- progress_bar.hpp:11-23: the characters of the bar, and the number printed; `none` is undefined behaviour: the conversion of a value that is
not in the range of `int`. -/
def displayProgress (progress : R) : Option (List Char × ℤ) :=
  match toInt (100 * progress), toInt (progress * 100) with
  | some pos, some pct =>
    if -2 ^ 31 ≤ pos ∧ pos < 2 ^ 31 ∧ -2 ^ 31 ≤ pct ∧ pct < 2 ^ 31 then
      some ((List.range 100).map fun (i : ℕ) => if (i : ℤ) < pos then '=' else if (i : ℤ) = pos then '>' else ' ', pct)
    else none
  | _, _ => none

end DRT
