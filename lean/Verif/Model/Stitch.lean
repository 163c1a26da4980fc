import Verif.Model.AddFringe
/-! # `stitch.py` -/

namespace SG
variable {F : Type} [PyFloat F]

/-- `np.concatenate((a[name],cut(b[name])),axis)` -/
def catAB (axis : Nat) (cut : Mat F → Mat F) (a b : Grid F) (f : Field) : Py (Mat F) := do
  let x ← a.arr f
  let y ← b.arr f
  if axis = 0 then x.concat0 (cut y) else x.concat1 (cut y)

/-- `np.concatenate((cut(b[name]),a[name]),axis)` -/
def catBA (axis : Nat) (cut : Mat F → Mat F) (a b : Grid F) (f : Field) : Py (Mat F) := do
  let y ← b.arr f
  let x ← a.arr f
  if axis = 0 then (cut y).concat0 x else (cut y).concat1 x

/-- Assignments `c[name] = ...` in order. -/
def assignAll : List (Field × Py (Mat F)) → Grid F → Py (Grid F)
  | [], c => .ok c
  | (f, v) :: rest, c => do
    let m ← v
    assignAll rest (c.put f m)

/-- East edge of `a`, west edge of `b` (stitch.py:99-122). -/
def stitchEW (a b : Grid F) : List (Field × Py (Mat F)) :=
  let whole := catAB 0 id a b
  let tail := catAB 0 Mat.tailRows a b
  [(.XG, tail .XG), (.YG, tail .YG), (.XC, whole .XC), (.YC, whole .YC),
   (.RAC, whole .RAC), (.DXG, whole .DXG), (.DYG, tail .DYG),
   (.RAZ, tail .RAZ), (.DXC, tail .DXC), (.DYC, whole .DYC),
   (.RAW, tail .RAW), (.DXV, tail .DXV), (.DYF, whole .DYF),
   (.RAS, whole .RAS), (.DXF, whole .DXF), (.DYU, tail .DYU)]

/-- North edge of `a`, south edge of `b` (stitch.py:124-147). -/
def stitchNS (a b : Grid F) : List (Field × Py (Mat F)) :=
  let whole := catAB 1 id a b
  let tail := catAB 1 Mat.tailCols a b
  [(.XG, tail .XG), (.YG, tail .YG), (.XC, whole .XC), (.YC, whole .YC),
   (.RAC, whole .RAC), (.DXG, tail .DXG), (.DYG, whole .DYG),
   (.RAZ, tail .RAZ), (.DXC, whole .DXC), (.DYC, tail .DYC),
   (.RAW, whole .RAW), (.DXV, tail .DXV), (.DYF, whole .DYF),
   (.RAS, tail .RAS), (.DXF, whole .DXF), (.DYU, tail .DYU)]

/-- West edge of `a`, east edge of `b` (stitch.py:149-172). -/
def stitchWE (a b : Grid F) : List (Field × Py (Mat F)) :=
  let whole := catBA 0 id a b
  let init := catBA 0 Mat.initRows a b
  [(.XG, init .XG), (.YG, init .YG), (.XC, whole .XC), (.YC, whole .YC),
   (.RAC, whole .RAC), (.DXG, whole .DXG), (.DYG, init .DYG),
   (.RAZ, init .RAZ), (.DXC, init .DXC), (.DYC, whole .DYC),
   (.RAW, init .RAW), (.DXV, init .DXV), (.DYF, whole .DYF),
   (.RAS, whole .RAS), (.DXF, whole .DXF), (.DYU, init .DYU)]

/-- South edge of `a`, north edge of `b` (stitch.py:174-197). -/
def stitchSN (a b : Grid F) : List (Field × Py (Mat F)) :=
  let whole := catBA 1 id a b
  let init := catBA 1 Mat.initCols a b
  [(.XG, init .XG), (.YG, init .YG), (.XC, whole .XC), (.YC, whole .YC),
   (.RAC, whole .RAC), (.DXG, init .DXG), (.DYG, whole .DYG),
   (.RAZ, init .RAZ), (.DXC, whole .DXC), (.DYC, init .DYC),
   (.RAW, whole .RAW), (.DXV, init .DXV), (.DYF, whole .DYF),
   (.RAS, init .RAS), (.DXF, whole .DXF), (.DYU, init .DYU)]

/-- The `if edges==(E,W): ... elif ...` (stitch.py:99-197). -/
def joinList (edges : Edge × Edge) (a b : Grid F) : List (Field × Py (Mat F)) :=
  match edges with
  | (.E, .W) => stitchEW a b
  | (.N, .S) => stitchNS a b
  | (.W, .E) => stitchWE a b
  | (.S, .N) => stitchSN a b
  | _ => []

/-- Joining two tiles for given edges (stitch.py:94-199). -/
def joinTiles (edges : Edge × Edge) (a b : Grid F) : Py (Grid F × Nat × Nat) := do
  let c ← assignAll (joinList edges a b) Grid.allNone
  match c .XC with
  | .arr m => return (c, m.rows, m.cols)
  | .none_ => throw .attributeError
  | .absent => throw .keyError

/-- `stitch(...)` (stitch.py:45-199). -/
def stitch [F64 F] (geod : Geod F) (strict : Bool) (fa : List Byte) (nia nja : Nat) (fb : List Byte)
    (nib njb : Nat) : Py (Grid F × Nat × Nat) := do
  let (ea, eb, a) ← (addfringe geod strict fa nia nja fb nib njb : Py (Edge × Edge × Grid F))
  let b ← (readMitgrid fb nib njb strict : Py (Grid F))
  joinTiles (ea, eb) a b

/-- `sgstitch` (`main`, stitch.py:202-230), output file with contents `old`: its contents afterwards. -/
def stitchMain [F64 F] (geod : Geod F) (strict : Bool) (fa : List Byte) (nia nja : Nat) (fb : List Byte)
    (nib njb : Nat) (old : List Byte) : List Byte × Py Unit :=
  match (stitch geod strict fa nia nja fb nib njb : Py (Grid F × Nat × Nat)) with
  | .error e => (old, .error e)
  | .ok (c, nic, njc) => writeMitgrid old c nic njc

end SG
