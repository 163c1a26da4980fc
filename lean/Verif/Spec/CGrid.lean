import Verif.Spec.Format
/-! # Staggered (Arakawa C) grid geometry

What the 16 arrays of a tile mean, written down once in terms of half-cell indices and independently of
the code: a tile with `m` x `n` tracer cells is described by the points `P a b`, `0 ≤ a ≤ 2m`,
`0 ≤ b ≤ 2n`, where even/even points are cell corners, odd/odd points are cell centres.
Everything outside the tile is undefined and represented by zero. -/

namespace SG.Spec
open Field
variable {F : Type} [PyFloat F]

/-- What an array contains. -/
inductive Kind
  | lon | lat | width | height | area
deriving DecidableEq, Repr

/-- The mitgrid naming scheme (docstring of mitgridfilefields.py:3-25): X, Y coordinates; DX, DY cell widths and
heights; RA areas. -/
def kind : Field → Kind
  | XC | XG => .lon
  | YC | YG => .lat
  | DXF | DXV | DXC | DXG => .width
  | DYF | DYU | DYC | DYG => .height
  | RAC | RAZ | RAW | RAS => .area

/-- Half-cell x-index of row `i`: arrays with `ni` rows are centred in x, those with `ni+1` sit on faces. -/
def halfI (f : Field) (i : Nat) : Int := if nrows f 0 = 0 then 2 * i + 1 else 2 * i
/-- Half-cell y-index of column `j`. -/
def halfJ (f : Field) (j : Nat) : Int := if ncols f 0 = 0 then 2 * j + 1 else 2 * j

/-- A sum with an undefined (zero) term is undefined (zero). -/
def sumOrZero (l : List F) : F :=
  if l.any PyFloat.isZero then Arith.zero else
    match l with
    | [] => Arith.zero
    | x :: xs => xs.foldl Arith.add x

/-- A tile: number of cells and half-cell points. -/
structure Tile (F : Type) where
  m : Nat
  n : Nat
  P : Int → Int → F × F

namespace Tile
variable (T : Tile F)

/-- Length of the half-cell edge from `(a,b)` to `(a+1,b)`. -/
def subX (inv : F → F → F → F → F) (a b : Int) : F :=
  if 0 ≤ a ∧ a < 2 * T.m ∧ 0 ≤ b ∧ b ≤ 2 * T.n then
    inv (T.P a b).1 (T.P a b).2 (T.P (a + 1) b).1 (T.P (a + 1) b).2
  else Arith.zero

/-- Length of the half-cell edge from `(a,b)` to `(a,b+1)`. -/
def subY (inv : F → F → F → F → F) (a b : Int) : F :=
  if 0 ≤ a ∧ a ≤ 2 * T.m ∧ 0 ≤ b ∧ b < 2 * T.n then
    inv (T.P a b).1 (T.P a b).2 (T.P a (b + 1)).1 (T.P a (b + 1)).2
  else Arith.zero

/-- Area of the quarter cell with lower left corner `(a,b)`, given a formula for a quadrilateral. -/
def subA (quad : F × F → F × F → F × F → F × F → F) (a b : Int) : F :=
  if 0 ≤ a ∧ a < 2 * T.m ∧ 0 ≤ b ∧ b < 2 * T.n then
    quad (T.P a b) (T.P (a + 1) b) (T.P (a + 1) (b + 1)) (T.P a (b + 1))
  else Arith.zero

/-- The entry of array `f` at row `i`, column `j`. -/
def entry (inv : F → F → F → F → F) (quad : F × F → F × F → F × F → F × F → F)
    (f : Field) (i j : Nat) : F :=
  let a := halfI f i
  let b := halfJ f j
  match kind f with
  | .lon => (T.P a b).1
  | .lat => (T.P a b).2
  | .width => sumOrZero [T.subX inv (a - 1) b, T.subX inv a b]
  | .height => sumOrZero [T.subY inv a (b - 1), T.subY inv a b]
  | .area => sumOrZero [T.subA quad (a - 1) (b - 1), T.subA quad a (b - 1),
      T.subA quad a b, T.subA quad (a - 1) b]

/-- All nonzero half-edge lengths in x (C order). -/
def xLengths (inv : F → F → F → F → F) : List F :=
  ((List.range (2 * T.m)).flatMap fun (a : Nat) => (List.range (2 * T.n + 1)).map fun (b : Nat) =>
    T.subX inv (a : Int) (b : Int)).filter fun x => !PyFloat.isZero x

/-- All nonzero half-edge lengths in y (C order). -/
def yLengths (inv : F → F → F → F → F) : List F :=
  ((List.range (2 * T.m + 1)).flatMap fun (a : Nat) => (List.range (2 * T.n)).map fun (b : Nat) =>
    T.subY inv (a : Int) (b : Int)).filter fun x => !PyFloat.isZero x

/-- Documented rule (config.py:10-14, computegrid.areas docstring): planar quadrilaterals if both mean
half-edge lengths are below the threshold (10 km), spherical ones otherwise. -/
def usePlanar (inv : F → F → F → F → F) : Bool :=
  PyFloat.lt (PyFloat.mean (T.xLengths inv)) PyFloat.planar &&
  PyFloat.lt (PyFloat.mean (T.yLengths inv)) PyFloat.planar

end Tile
end SG.Spec
