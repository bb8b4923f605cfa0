import Verif.Model.Vec

/-!
# Model of `include/drt/matrix.hpp` and `include/drt/tensor.hpp`
-/

namespace DRT
open Scalar Vec

variable {R : Type} [Scalar R]

/-- matrix.hpp:12-64, `matrix<Real, rows, cols>` seen through `operator()(i,j)`.
The flat storage `M_[i*cols + j]` is modelled separately (`FlatMat`) and shown to refine this. -/
abbrev Mat (R : Type) (r c : ℕ) := Fin r → Fin c → R

/-- matrix.hpp:18-24, the storage index `i*cols + j`. -/
def matIdx (cols : ℕ) (i j : ℕ) : ℕ := i * cols + j

/-- matrix.hpp:62-63, the flat storage `Real M_[rows*cols]` as a list of cells. -/
structure FlatMat (R : Type) (r c : ℕ) where
  /-- `M_` -/
  cells : List R
  /-- The array has `rows*cols` elements. -/
  len : cells.length = r * c

namespace FlatMat
variable {r c : ℕ}

/-- matrix.hpp:18-20, `operator()(i,j) const`; `none` is a read outside the array. -/
def get (M : FlatMat R r c) (i j : ℕ) : Option R := M.cells[matIdx c i j]?

/-- matrix.hpp:22-24, assignment through `operator()(i,j)`. -/
def set (M : FlatMat R r c) (i j : ℕ) (x : R) : FlatMat R r c :=
  ⟨M.cells.set (matIdx c i j) x, by rw [List.length_set, M.len]⟩

/-- matrix.hpp:26-32, `column(j)`. -/
def column (M : FlatMat R r c) (j : ℕ) : Fin r → Option R :=
  fun i => M.cells[i * c + j]?

end FlatMat

namespace Mat

/-- matrix.hpp:26-32, `column(j)`. -/
def column {r c : ℕ} (M : Mat R r c) (j : Fin c) : Vec R r := fun i => M i j

/-- matrix.hpp:50-59, `max_norm()`: largest absolute entry over the flat storage
(`rows*cols` must be positive for the C++ code; entries are visited row by row). -/
def maxNorm {k : ℕ} (M : Fin (k + 1) → R) : R :=
  Fin.foldl k (fun m i => if gt (Scalar.abs (M i.succ)) m then Scalar.abs (M i.succ) else m)
    (Scalar.abs (M 0))

/-- matrix.hpp:124-134, `operator*(M, v)`. -/
def mulVec {r c : ℕ} (M : Mat R r c) (v : Vec R c) : Vec R r :=
  fun i => loopSum c fun j => M i j * v j

/-- matrix.hpp:136-149, `operator*(A, B)`. -/
def mul {r c k : ℕ} (A : Mat R r c) (B : Mat R c k) : Mat R r k :=
  fun i j => loopSum c fun l => A i l * B l j

/-- matrix.hpp:66-79, `determinant(m)` for 2x2. -/
def det2 (m : Mat R 2 2) : R := differenceOfProducts (m 0 0) (m 1 1) (m 0 1) (m 1 0)

/-- matrix.hpp:66-79, `determinant(m)` for 3x3. -/
def det3 (m : Mat R 3 3) : R :=
  m 0 0 * (m 1 1 * m 2 2 - m 1 2 * m 2 1) - m 0 1 * (m 1 0 * m 2 2 - m 1 2 * m 2 0)
    + m 0 2 * (m 1 0 * m 2 1 - m 1 1 * m 2 0)

/-- matrix.hpp:92-122, `bool inverse(m, m_inv)` for 2x2; `out` is the prior content of `m_inv`. -/
def inverse2 (m out : Mat R 2 2) : Bool × Mat R 2 2 :=
  let det := det2 m
  if le (Scalar.abs det) tiny then (false, out)
  else
    let invDet := 1 / det
    (true, ![![m 1 1 * invDet, -(m 0 1) * invDet],
             ![-(m 1 0) * invDet, m 0 0 * invDet]])

/-- matrix.hpp:92-122, `bool inverse(m, m_inv)` for 3x3; `out` is the prior content of `m_inv`. -/
def inverse3 (m out : Mat R 3 3) : Bool × Mat R 3 3 :=
  let det := det3 m
  if le (Scalar.abs det) tiny then (false, out)
  else
    let invDet := 1 / det
    (true,
      ![![(m 1 1 * m 2 2 - m 1 2 * m 2 1) * invDet, (m 0 2 * m 2 1 - m 0 1 * m 2 2) * invDet,
          (m 0 1 * m 1 2 - m 0 2 * m 1 1) * invDet],
        ![(m 1 2 * m 2 0 - m 1 0 * m 2 2) * invDet, (m 0 0 * m 2 2 - m 0 2 * m 2 0) * invDet,
          (m 0 2 * m 1 0 - m 0 0 * m 1 2) * invDet],
        ![(m 1 0 * m 2 1 - m 1 1 * m 2 0) * invDet, (m 0 1 * m 2 0 - m 0 0 * m 2 1) * invDet,
          (m 0 0 * m 1 1 - m 0 1 * m 1 0) * invDet]])

/-- matrix.hpp:81-90, value-returning `inverse(m)` for 2x2.
`none` means that the returned matrix has indeterminate entries (the failure is only printed). -/
def inverseVal2 (m : Mat R 2 2) : Option (Mat R 2 2) :=
  match inverse2 m (fun _ _ => Scalar.nan) with
  | (true, x) => some x
  | (false, _) => none

/-- matrix.hpp:81-90, value-returning `inverse(m)` for 3x3. -/
def inverseVal3 (m : Mat R 3 3) : Option (Mat R 3 3) :=
  match inverse3 m (fun _ _ => Scalar.nan) with
  | (true, x) => some x
  | (false, _) => none

/-- matrix.hpp:157-179, `solve(b)` for 2x2. -/
def solve2 (M : Mat R 2 2) (b : Vec R 2) : Vec R 2 :=
  if le (Scalar.abs (M 1 0)) (eps * eps) then
    let v1 := b 1 / M 1 1
    let v0 := (b 0 - M 0 1 * v1) / M 0 0
    ![v0, v1]
  else
    let rM10 := 1 / M 1 0
    let m00dm10 := M 0 0 * rM10
    let b1 := b 0 - b 1 * m00dm10
    let v1 := b1 / (M 0 1 - M 1 1 * m00dm10)
    let v0 := b 1 - M 1 1 * v1
    ![v0 * rM10, v1]

/-- matrix.hpp:180-274, `solve(b)` for 3x3.
The local `A` and `y` start uninitialised: a cell holds `none` until it is written.
The result `none` means that an indeterminate value is read or returned. -/
def solve3 (M : Mat R 3 3) (b : Vec R 3) : Option (Vec R 3) :=
  if ne (M 0 0) 0 then do
    let a01 := M 0 1 / M 0 0
    let a02 := M 0 2 / M 0 0
    let y0 := b 0 / M 0 0
    -- lines 189-194: row 1 is written only if M(1,0) != 0
    let row1 : Option (R × R × R) :=
      if ne (M 1 0) 0 then
        some (a01 - M 1 1 / M 1 0, a02 - M 1 2 / M 1 0, y0 - b 1 / M 1 0)
      else none
    -- lines 196-201: row 2 is written only if M(2,0) != 0
    let row2 : Option (R × R × R) :=
      if ne (M 2 0) 0 then
        some (a01 - M 2 1 / M 2 0, a02 - M 2 2 / M 2 0, y0 - b 2 / M 2 0)
      else none
    let (a11, a12, y1) ← row1
    if ne a11 0 then
      let (a21, a22, y2) ← row2
      let a12' := a12 / a11
      let y1' := y1 / a11
      let a22' := a12' - a22 / a21
      let y2' := (y1' - y2 / a21) / a22'
      let v2 := y2'
      let v1 := y1' - a12' * v2
      let v0 := y0 - a01 * v1 - a02 * v2
      return ![v0, v1, v2]
    else
      let (a21, a22, y2) ← row2
      let v2 := y1 / a12
      let v1 := (y2 - a22 * v2) / a21
      let v0 := y0 - a01 * v1 - a02 * v2
      return ![v0, v1, v2]
  else if ne (M 2 0) 0 then do
    let a21 := M 2 1 / M 2 0
    let a22 := M 2 2 / M 2 0
    let y2 := b 2 / M 2 0
    let row1 : Option (R × R × R) :=
      if ne (M 1 0) 0 then
        some (a21 - M 1 1 / M 1 0, a22 - M 1 2 / M 1 0, y2 - b 1 / M 1 0)
      else none
    let (a11, a12, y1) ← row1
    -- lines 240-247: with A(1,1) == 0 an error is printed and the row is left as it is
    let a12' := if eq a11 0 then a12 else a12 / a11
    let y1' := if eq a11 0 then y1 else y1 / a11
    let a02 := a12' - M 0 2 / M 0 1
    let y0 := (y1' - b 0 / M 0 1) / a02
    let v2 := y0
    let v1 := y1' - a12' * v2
    let v0 := y2 - a21 * v1 - a22 * v2
    return ![v0, v1, v2]
  else
    -- lines 262-264: an error is printed and the uninitialised `v` is returned
    none

end Mat

/-! ## Tensor -/

/-- tensor.hpp:10-60, `tensor<Real, panels, rows, cols>`: flat storage `Real T_[rows*cols*panels]`. -/
structure Tensor (R : Type) (panels rows cols : ℕ) where
  /-- `T_` -/
  cells : List R
  /-- The array has `rows*cols*panels` elements. -/
  len : cells.length = rows * cols * panels

namespace Tensor
variable {p r c : ℕ}

/-- tensor.hpp:16-18, `operator()(i,j,k) const`; `none` is a read outside the array. -/
def get (T : Tensor R p r c) (i j k : ℕ) : Option R := T.cells[i * r * c + j * c + k]?

/-- tensor.hpp:20-22, assignment through `operator()(i,j,k)`. -/
def set (T : Tensor R p r c) (i j k : ℕ) (x : R) : Tensor R p r c :=
  ⟨T.cells.set (i * r * c + j * c + k) x, by rw [List.length_set, T.len]⟩

/-- tensor.hpp:25-36, the contraction `operator()(x, y)`: `j` runs over `cols`, `k` over `rows`,
and the element read is `T_[i*rows*cols + j*cols + k]`. `none` is a read outside the array. -/
def contract (T : Tensor R p r c) (x : Vec R c) (y : Vec R r) (i : Fin p) : Option R :=
  Fin.foldl c (fun acc j =>
    Fin.foldl r (fun acc k => do
      let z ← acc
      let t ← T.cells[i * r * c + j * c + k]?
      return z + t * x j * y k) acc) (some 0)

end Tensor
end DRT
