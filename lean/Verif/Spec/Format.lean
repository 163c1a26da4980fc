import Verif.Model.Fields
/-! # The documented `.mitgrid` format

Written from the documentation only (docstring of `read_mitgridfile`, gridio.py:40-61, and the module
docstring of mitgridfilefields.py), not from the code. -/

namespace SG.Spec
open Field

/-- Position of a field in the file (order of the list printed in gridio.py:61). -/
def slot : Field → Nat
  | XC => 0 | YC => 1 | DXF => 2 | DYF => 3 | RAC => 4 | XG => 5 | YG => 6 | DXV => 7
  | DYU => 8 | RAZ => 9 | DXC => 10 | DYC => 11 | RAW => 12 | RAS => 13 | DXG => 14 | DYG => 15

/-- Rows of a field for `ni` cells (gridio.py:44-59 with 270 ↦ ni, 271 ↦ ni+1). -/
def nrows (f : Field) (ni : Nat) : Nat :=
  match f with
  | XC | YC | DXF | DYF | RAC | DYC | RAS | DXG => ni
  | XG | YG | DXV | DYU | RAZ | DXC | RAW | DYG => ni + 1

/-- Columns of a field for `nj` cells (gridio.py:44-59 with 90 ↦ nj, 91 ↦ nj+1). -/
def ncols (f : Field) (nj : Nat) : Nat :=
  match f with
  | XC | YC | DXF | DYF | RAC | DXC | RAW | DYG => nj
  | XG | YG | DXV | DYU | RAZ | DYC | RAS | DXG => nj + 1

/-- A grid with exactly the documented arrays and sizes. -/
def Complete {F : Type} (g : Grid F) (ni nj : Nat) : Prop :=
  ∀ f, ∃ m, g f = .arr m ∧ m.rows = nrows f ni ∧ m.cols = ncols f nj

/-- Observable equality of grids: same arrays under every name. -/
def GridSame {F : Type} (g h : Grid F) : Prop :=
  ∀ f, match g f, h f with
    | .arr m, .arr m' => m.Same m'
    | .none_, .none_ => True
    | .absent, .absent => True
    | _, _ => False

/-- Number of doubles in a file. -/
def nDoubles (ni nj : Nat) : Nat := 16 * ((ni + 1) * (nj + 1))

/-- Index, counted in doubles, of element `(i,j)` of field `f` (column-major slices of `(ni+1)*(nj+1)`). -/
def pos (f : Field) (ni nj i j : Nat) : Nat :=
  slot f * ((ni + 1) * (nj + 1)) + (i + j * (ni + 1))

/-- The `n`-th big-endian double in a byte string, as a 64-bit number, if complete.
Stated with powers of 256, independently of the model's bit operations. -/
def beDouble (bytes : List (BitVec 8)) (n : Nat) : Option Nat :=
  if 8 * n + 8 ≤ bytes.length then
    some ((bytes.drop (8 * n)).take 8 |>.foldl (fun acc b => acc * 256 + b.toNat) 0)
  else none

end SG.Spec
