import Verif.Base.Float
/-! # `mitgridfilefields.py` -/

namespace SG

/-- The 16 dictionary keys (mitgridfilefields.py:27-28).  Other keys never occur in simplegrid. -/
inductive Field
  | XC | YC | DXF | DYF | RAC | XG | YG | DXV | DYU | RAZ | DXC | DYC | RAW | RAS | DXG | DYG
deriving DecidableEq, Repr

namespace Mgf
open Field

/-- `names` (mitgridfilefields.py:27-28). -/
def names : List Field :=
  [XC, YC, DXF, DYF, RAC, XG, YG, DXV, DYU, RAZ, DXC, DYC, RAW, RAS, DXG, DYG]

/-- `ni_delta_sizes` (mitgridfilefields.py:30-31). -/
def niDeltaSizes : List Nat :=
  [0, 0, 0, 0, 0, 1, 1, 1, 1, 1, 1, 0, 1, 0, 0, 1]

/-- `nj_delta_sizes` (mitgridfilefields.py:33-34). -/
def njDeltaSizes : List Nat :=
  [0, 0, 0, 0, 0, 1, 1, 1, 1, 1, 0, 1, 0, 1, 1, 0]

/-- `zip(names, ni_delta_sizes, nj_delta_sizes)` (gridio.py:97, 148; mds2mitgrid.py:28). -/
def zipped : List (Field × Nat × Nat) := names.zip (niDeltaSizes.zip njDeltaSizes)

end Mgf

/-- A value stored in a grid dictionary: key missing, `None`, or a 2-d array. -/
inductive Entry (F : Type)
  | absent
  | none_
  | arr (m : Mat F)

/-- A grid dictionary (`mitgrid`, `mitgrid_matrices`, `outgrid`, ...). -/
abbrev Grid (F : Type) := Field → Entry F

namespace Grid
variable {F : Type}

/-- `{}` -/
def empty : Grid F := fun _ => .absent
/-- `{key:None for key in names}` -/
def allNone : Grid F := fun _ => .none_
/-- `g[name] = m` -/
def put (g : Grid F) (f : Field) (m : Mat F) : Grid F := fun f' => if f' = f then .arr m else g f'
/-- `g[name]` used as an array: `KeyError` when missing, `TypeError` when `None`. -/
def arr (g : Grid F) (f : Field) : Py (Mat F) :=
  match g f with
  | .absent => .error .keyError
  | .none_ => .error .typeError
  | .arr m => .ok m

end Grid
end SG
