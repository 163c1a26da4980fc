import Verif.Model.Fields
/-! # `gridio.py`: reading and writing `.mitgrid` files

Not modelled: `verbose` printing, negative `ni`/`nj`, failure of `open`/`fromfile`, short writes,
buffering (file contents are taken when all buffers are flushed).
Arrays handed to the writer are 2-d float64 arrays or `None`. -/

namespace SG

abbrev Byte := BitVec 8

/-- The 8 bytes of a double, most significant first (`astype('>f8')`, gridio.py:159). -/
def beBytes (b : BitVec 64) : List Byte :=
  [b.extractLsb' 56 8, b.extractLsb' 48 8, b.extractLsb' 40 8, b.extractLsb' 32 8,
   b.extractLsb' 24 8, b.extractLsb' 16 8, b.extractLsb' 8 8, b.extractLsb' 0 8]

/-- Interpretation of 8 bytes, most significant first, as the bits of a double
(dtype `'>f8'`, mitgridfilefields.py:36-41). -/
def ofBE (b0 b1 b2 b3 b4 b5 b6 b7 : Byte) : BitVec 64 :=
  b0 ++ b1 ++ b2 ++ b3 ++ b4 ++ b5 ++ b6 ++ b7

/-- `np.fromfile(filename, '>f8')` (gridio.py:91): complete 8-byte items, a trailing partial item is ignored. -/
def fromfile {F : Type} [F64 F] : List Byte → List F
  | b0 :: b1 :: b2 :: b3 :: b4 :: b5 :: b6 :: b7 :: rest =>
    F64.ofBits (ofBE b0 b1 b2 b3 b4 b5 b6 b7) :: fromfile rest
  | _ => []

/-- `np.reshape(v, (r,c), order='F')` (gridio.py:102-103, regrid.py:157,159): `ValueError` unless sizes agree. -/
def reshapeF {F : Type} [PyFloat F] (v : List F) (r c : Nat) : Py (Mat F) :=
  if v.length = r * c then
    .ok ⟨r, c, fun i j => v.getD (i + j * r) Arith.zero⟩
  else .error .valueError

/-- `np.reshape(m, size, order='F')` (gridio.py:157): column by column. -/
def flattenF {F : Type} (m : Mat F) : List F :=
  (List.range m.cols).flatMap fun j => (List.range m.rows).map fun i => m.get i j

/-- Python truth value of a float: nonzero (NaN is truthy). -/
def truthy {F : Type} [PyFloat F] (x : F) : Bool := !PyFloat.isZero x

/-- `any(m[i,:])` -/
def anyRow {F : Type} [PyFloat F] (m : Mat F) (i : Nat) : Bool :=
  (List.range m.cols).any fun j => truthy (m.get i j)

/-- `any(m[:,j])` -/
def anyCol {F : Type} [PyFloat F] (m : Mat F) (j : Nat) : Bool :=
  (List.range m.rows).any fun i => truthy (m.get i j)

/-- Loop body of `read_mitgridfile` (gridio.py:99-118). -/
def readField {F : Type} [PyFloat F] (raw : List F) (ni nj : Nat) (strict : Bool)
    (g : Grid F) (x : Field × Nat × Nat) : Py (Grid F) := do
  let (name, niDel, njDel) := x
  let sliceSize := (ni + 1) * (nj + 1)
  let start := sliceSize * Mgf.names.idxOf name
  let stop := sliceSize * (Mgf.names.idxOf name + 1)
  let m ← reshapeF ((raw.take stop).drop start) (ni + 1) (nj + 1)
  if strict && ((niDel == 0 && anyRow m ni) || (njDel == 0 && anyCol m nj)) then
    throw .runtimeError
  return g.put name ⟨min (ni + niDel) m.rows, min (nj + njDel) m.cols, m.get⟩

/-- `read_mitgridfile(filename,ni,nj,strict)` on a file with contents `bytes` (gridio.py:78-121). -/
def readMitgrid {F : Type} [PyFloat F] [F64 F] (bytes : List Byte) (ni nj : Nat) (strict : Bool) :
    Py (Grid F) :=
  let raw : List F := fromfile bytes
  Mgf.zipped.foldlM (readField raw ni nj strict) Grid.empty

/-- `tmparray[:r,:c] = griddata[name]` on a zero array of shape `(R,C)` (gridio.py:151-154).
numpy broadcasting: each axis of the value must equal the target's or be 1; `None` converts to NaN. -/
def assignEntry {F : Type} [PyFloat F] (R C r c : Nat) : Entry F → Py (Mat F)
  | .absent => .error .keyError
  | .none_ => .ok ⟨R, C, fun i j => if i < r ∧ j < c then PyFloat.nan else Arith.zero⟩
  | .arr v =>
    if (v.rows = r ∨ v.rows = 1) ∧ (v.cols = c ∨ v.cols = 1) then
      .ok ⟨R, C, fun i j =>
        if i < r ∧ j < c then v.get (if v.rows = r then i else 0) (if v.cols = c then j else 0)
        else Arith.zero⟩
    else .error .valueError

/-- The bytes written for one field (gridio.py:151-161). -/
def fieldBytes {F : Type} [PyFloat F] [F64 F] (g : Grid F) (ni nj : Nat) (x : Field × Nat × Nat) :
    Py (List Byte) := do
  let (name, niDel, njDel) := x
  let tmp ← assignEntry (ni + 1) (nj + 1) (ni + niDel) (nj + njDel) (g name)
  return (flattenF tmp).flatMap fun v => beBytes (F64.toBits v)

/-- The loop of `write_mitgridfile` (gridio.py:148-161): what is in the file afterwards,
and whether the loop completed.  Bytes already written stay when a later field raises. -/
def writeLoop {F : Type} [PyFloat F] [F64 F] (g : Grid F) (ni nj : Nat) :
    List (Field × Nat × Nat) → List Byte → List Byte × Py Unit
  | [], file => (file, .ok ())
  | x :: xs, file =>
    match fieldBytes g ni nj x with
    | .ok bs => writeLoop g ni nj xs (file ++ bs)
    | .error e => (file, .error e)

/-- `write_mitgridfile(filename,griddata,ni,nj)` (gridio.py:145-164) on a file with previous contents `old`:
new contents and outcome (`open(...,'wb')` truncates first). -/
def writeMitgrid {F : Type} [PyFloat F] [F64 F] (_old : List Byte) (g : Grid F) (ni nj : Nat) :
    List Byte × Py Unit :=
  writeLoop g ni nj Mgf.zipped []

end SG
