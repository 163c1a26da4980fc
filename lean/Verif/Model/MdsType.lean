import Verif.Model.MdsData
/-! # `mds.py`: the argument `astype` of `rdmds`

The array that `rdmds` fills has elements of a type `G`; a `Target` says how `np.empty(..., astype)`, `arr[...] = fill_value` and `arrtile[...] = ...`
make elements of `G` out of items of a file and out of the fill value.

Simplifications: conversions never raise (floating-point and complex types; numpy refuses to convert NaN to an integer); `usememmap` and `returnmeta` are
not repeated here.  The component `arr` of `RdState` keeps only the shape; the array itself is carried beside the state. -/

namespace SG
variable {F G : Type}

/-- A data type: the items of a file in it, the fill value in it (it may depend on the precision of the files, `astype=None`), the element `np.zeros` has. -/
structure Target (G : Type) where
  items : Prec → Endian → List Byte → List G
  fill : Prec → G
  zero : G

/-- `astype=float`, the default (mds.py:202). -/
def Target.double [PyFloat F] [F64 F] [F32 F] (fill : F) : Target F := ⟨itemsOf, fun _ => fill, Arith.zero⟩

/-- Another type, to which numpy converts by `conv`. -/
def Target.of [PyFloat F] [F64 F] [F32 F] (conv : F → G) (fill : F) : Target G := ⟨fun p e bs => (itemsOf p e bs).map conv, fun _ => conv fill, conv Arith.zero⟩

/-- An element of an array of the type of the files: a single or a double. -/
inductive Stored
  | single (w : BitVec 32) | double (w : BitVec 64)
deriving DecidableEq, Repr

/-- One item of a file as it is. -/
def Stored.item (p : Prec) (e : Endian) (bs : List Byte) : Stored :=
  match p with
  | .f32 => .single (BitVec.ofNat 32 (bytesNat (e.order bs)))
  | .f64 => .double (BitVec.ofNat 64 (bytesNat (e.order bs)))

/-- `astype=None`: the type of the files (mds.py:347). -/
def Target.same [F64 F] [F32 F] (fill : F) : Target Stored :=
  ⟨fun p e bs => (List.range (bs.length / p.size)).map fun k => Stored.item p e ((bs.drop (k * p.size)).take p.size),
   fun p => match p with | .f32 => .single (F32.toBits32 fill) | .f64 => .double (F64.toBits fill), .double 0⟩

/-- All records at once (mds.py:424-430). -/
def readAllAs (T : Target G) (args : RdArgs F) (st : RdState F) (arr : NdArr G) (iit : Nat) (pl : Place)
    (src : Option (Int × Int × Int × Int)) (bytes : Unit → Py (List Byte)) : Py (NdArr G) :=
  if nonEmptySrc src then do
    let bs ← bytes ()
    let items : List G := T.items st.prec args.endian bs
    if items.length ≠ prodL (st.nrecords :: st.recshape) then throw .valueError
    let axes ← sourceAxes args st.recshape src
    let v := (NdArr.ofList T.zero (st.nrecords :: st.recshape) items).select (List.range st.nrecords :: axes)
    arr.assign (st.recs.length :: pl.shape) (fun idx => iit :: idx.take 1 ++ pl.pos (idx.drop 1)) v
  else .ok arr

/-- One record (mds.py:433-442). -/
def readRecAs (T : Target G) (args : RdArgs F) (st : RdState F) (iit : Nat) (pl : Place)
    (src : Option (Int × Int × Int × Int)) (bs : List Byte) (arr : NdArr G) (x : Int × Nat) : Py (NdArr G) := do
  let recnum := if x.1 < 0 then x.1 + st.nrecords else x.1
  if recnum < 0 then throw .valueError
  let count := prodL st.recshape
  if nonEmptySrc src then do
    let items : List G := (T.items st.prec args.endian (bs.drop (recnum.toNat * count * st.prec.size))).take count
    if items.length ≠ count then throw .valueError
    let axes ← sourceAxes args st.recshape src
    arr.assign pl.shape (fun idx => iit :: x.2 :: pl.pos idx) ((NdArr.ofList T.zero st.recshape items).select axes)
  else return arr

/-- Lines 424-442. -/
def readTileAs (T : Target G) (args : RdArgs F) (st : RdState F) (arr : NdArr G) (iit : Nat) (pl : Place)
    (src : Option (Int × Int × Int × Int)) (bytes : Unit → Py (List Byte)) : Py (NdArr G) :=
  match args.rec? with
  | none => readAllAs T args st arr iit pl src bytes
  | some _ => do
    let bs ← bytes ()
    st.recs.zipIdx.foldlM (readRecAs T args st iit pl src bs) arr

/-- `np.empty(shape, astype)`, `arr[...] = fill_value` at the first meta file (mds.py:370-371). -/
def allocAs (T : Target G) (s : Option (RdState F × NdArr G)) (st : RdState F) : NdArr G :=
  match s with
  | none => ⟨st.arr.shape, fun _ => T.fill st.prec⟩
  | some x => x.2

/-- One meta file (mds.py:337-443). -/
def tileStepAs [PyFloat F] (T : Target G) (pf : Text → Py F) (d : MdsDir) (args : RdArgs F) (nit iit : Nat) (s : Option (RdState F × NdArr G))
    (metafile : Text) : Py (Option (RdState F × NdArr G)) := do
  let text ← d.openText metafile
  let m ← readmeta pf text
  let st ← stateFor args nit (s.map (·.1)) m
  let datafile := metafile.take (metafile.length - 4) ++ "data".toList
  let (i0s, ies, src) ← regionOf args st.win m
  let pl ← placeOf ((allocAs T s st).shape.drop 2) i0s ies m.m2g
  let arr ← readTileAs T args st (allocAs T s st) iit pl src (fun _ => d.openData datafile)
  return some (st, arr)

/-- One iteration (mds.py:323-443). -/
def itrStepAs [PyFloat F] (T : Target G) (pf : Text → Py F) (d : MdsDir) (fname : Text) (args : RdArgs F) (nit : Nat)
    (s : Option (RdState F × NdArr G)) (x : Option Nat × Nat) : Py (Option (RdState F × NdArr G)) :=
  let name := match x.1 with
    | none => fname
    | some n => fname ++ itrText n
  match d.metafiles name with
  | [] => .error .ioError
  | files => files.foldlM (tileStepAs T pf d args nit x.2) s

/-- `rdmds` with `astype` (mds.py:201-479). -/
def rdmdsAs [PyFloat F] (T : Target G) (pf : Text → Py F) (d : MdsDir) (fname : Text) (args : RdArgs F) : Py (NdArr G) := do
  let itrs := itrsOf d fname args.itrs
  match ← itrs.zipIdx.foldlM (itrStepAs T pf d fname args itrs.length) none with
  | none => return ⟨[0], fun _ => T.zero⟩
  | some (st, arr) =>
    let dims := itrs.length :: st.recs.length :: args.lev.map fun l => l.list.length
    arr.reshape T.zero (squeezed args dims ++ arr.shape.drop (2 + args.lev.length))

end SG
