import Verif.Base.NdArr
import Verif.Model.GridIO
import Verif.Model.MdsMeta
/-! # `mds.py`: `rdmds` and `wrmds`

Simplifications: file names have no shell wildcards; the dimensions and `nrecords` of a meta file, iteration numbers, `ndims` and
`nrecords` arguments are natural numbers where they are used as sizes (numpy reads a size `-1` as "what is left"; here it raises);
`int` and `float` items of meta files are not compared with each other; `deltat` and a partial meta file left behind by a failing `wrmds`
are not modelled; neither are `astype` other than `float`, `verbose` and `debug` of `rdmds`.  `returnmeta`, `usememmap`, `dimlist` and
list-valued options of `wrmds` are in `Model.MdsMore`. -/

namespace SG

/-- Single precision: `astype('f4')` and widening. -/
class F32 (F : Type) where
  toBits32 : F → BitVec 32
  ofBits32 : BitVec 32 → F

variable {F : Type}

/-! ## Bytes of items -/

/-- `machineformat` (mds.py:190-196) -/
inductive Endian | big | little
deriving DecidableEq, Repr

/-- `k` bytes, most significant first. -/
def natBytes : Nat → Nat → List Byte
  | 0, _ => []
  | k + 1, v => natBytes k (v / 256) ++ [BitVec.ofNat 8 v]

/-- The number written by bytes, most significant first. -/
def bytesNat (bs : List Byte) : Nat := bs.foldl (fun n b => 256 * n + b.toNat) 0

/-- `dtype.itemsize` -/
def Prec.size : Prec → Nat
  | .f32 => 4
  | .f64 => 8

def Endian.order (e : Endian) (bs : List Byte) : List Byte := match e with | .big => bs | .little => bs.reverse

/-- `astype(tp)` and the bytes of one item (mds.py:604). -/
def itemBytes [F64 F] [F32 F] (p : Prec) (e : Endian) (x : F) : List Byte :=
  e.order (natBytes p.size (match p with | .f32 => (F32.toBits32 x).toNat | .f64 => (F64.toBits x).toNat))

def itemOf [F64 F] [F32 F] (p : Prec) (e : Endian) (bs : List Byte) : F :=
  let n := bytesNat (e.order bs)
  match p with
  | .f32 => F32.ofBits32 (BitVec.ofNat 32 n)
  | .f64 => F64.ofBits (BitVec.ofNat 64 n)

/-- `np.fromfile(f,tp)`: all complete items. -/
def itemsOf [F64 F] [F32 F] (p : Prec) (e : Endian) (bs : List Byte) : List F :=
  (List.range (bs.length / p.size)).map fun k => itemOf p e ((bs.drop (k * p.size)).take p.size)

/-! ## Directories -/

/-- The files of a directory: names in the order of the operating system, contents of text and data files. -/
structure MdsDir where
  names : List Text
  text : Text → Text
  data : Text → List Byte

def MdsDir.openText (d : MdsDir) (n : Text) : Py Text := if n ∈ d.names then .ok (d.text n) else .error .ioError
def MdsDir.openData (d : MdsDir) (n : Text) : Py (List Byte) := if n ∈ d.names then .ok (d.data n) else .error .ioError

/-- Does the rest of a name match `digits` many digits? -/
def digitsThen (k : Nat) (s : Text) (p : Text → Bool) : Bool :=
  (s.take k).length = k && (s.take k).all Char.isDigit && p (s.drop k)

/-- `.ddd.ddd.meta` (mds.py:329) -/
def isTileSuffix (s : Text) : Bool :=
  s.take 1 = ['.'] && digitsThen 3 (s.drop 1) fun s => s.take 1 = ['.'] && digitsThen 3 (s.drop 1) fun s => s = ".meta".toList

/-- `glob.glob(fname + 2*('.'+3*'[0-9]') + '.meta') or glob.glob(fname+'.meta')` (mds.py:329) -/
def MdsDir.metafiles (d : MdsDir) (fname : Text) : List Text :=
  let tiles := d.names.filter fun n => fname.isPrefixOf n && isTileSuffix (n.drop fname.length)
  if tiles ≠ [] then tiles
  else if fname ++ ".meta".toList ∈ d.names then [fname ++ ".meta".toList] else []

/-- Names `fname.dddddddddd<suffix>`: their iteration numbers. -/
def MdsDir.itrsWith (d : MdsDir) (fname suffix : Text) : List Nat :=
  d.names.filterMap fun n =>
    let s := n.drop fname.length
    if fname.isPrefixOf n && (s.take 1 = ['.'] && digitsThen 10 (s.drop 1) fun s => s = suffix) then some (textVal ((s.drop 1).take 10))
    else none

/-- `list.sort()` for numbers. -/
def insertNat (n : Nat) : List Nat → List Nat
  | [] => [n]
  | m :: l => if n ≤ m then n :: m :: l else m :: insertNat n l
def sortNat : List Nat → List Nat
  | [] => []
  | n :: l => insertNat n (sortNat l)

/-- `scanforfiles(fname)` (mds.py:158-171) -/
def MdsDir.scan (d : MdsDir) (fname : Text) : List Nat :=
  let tiled := d.itrsWith fname ".001.001.meta".toList
  sortNat (if tiled = [] then d.itrsWith fname ".meta".toList else tiled)

/-! ## Arguments of `rdmds` -/

/-- `itrs`: -1, a number, a list, NaN, infinity. -/
inductive Itrs
  | noItr | one (n : Nat) | many (l : List Nat) | all | last
deriving DecidableEq, Repr

/-- A scalar or a list (`rec`, items of `lev`). -/
inductive Sel
  | one (z : Int) | many (l : List Int)
deriving DecidableEq, Repr

/-- `aslist` (mds.py:145-151) -/
def Sel.list : Sel → List Int
  | .one z => [z]
  | .many l => l
/-- `np.iterable` -/
def Sel.iterable : Sel → Bool
  | .one _ => false
  | .many _ => true

structure RdArgs (F : Type) where
  itrs : Itrs := .noItr
  endian : Endian := .big
  rec? : Option Sel := none
  fill : F
  region : Option (Int × Int × Int × Int) := none
  lev : List Sel := []
  squeeze : Bool := true

/-- `'.{0:010d}'.format(it)` (mds.py:325) -/
def itrText (n : Nat) : Text := '.' :: padZero 10 (natText n)

/-! ## Dictionaries compared (mds.py:374) -/

def Val.same [PyFloat F] : Val F → Val F → Bool
  | .int a, .int b => a = b
  | .str a, .str b => a = b
  | .flt a, .flt b => PyFloat.le a b && PyFloat.le b a
  | _, _ => false

def sameVals [PyFloat F] : List (Val F) → List (Val F) → Bool
  | [], [] => true
  | a :: l, b :: m => a.same b && sameVals l m
  | _, _ => false

def Dict.same [PyFloat F] (d e : Dict F) : Bool :=
  d.length = e.length && d.all fun x => match e.get x.1 with
    | some v => sameVals x.2 v
    | none => false

/-! ## State of `rdmds` -/

structure RdState (F : Type) where
  prec : Prec
  recshape : List Nat
  nrecords : Nat
  /-- `reclist`, after `None` was replaced (mds.py:353) -/
  recs : List Int
  /-- `ri0,rie,rj0,rje` -/
  win : Int × Int × Int × Int
  metaref : Dict F
  arr : NdArr F

def one? {α : Type} : List α → Py α
  | [a] => .ok a
  | _ => .error .valueError

/-- `l[-1-k]` -/
def fromEnd {α : Type} (l : List α) (k : Nat) : Py α := match l.reverse[k]? with
  | some a => .ok a
  | none => .error .indexError

def toSize (z : Int) : Py Nat := if 0 ≤ z then .ok z.toNat else .error .valueError

def precOf [DecidableEq Text] : Val F → Py Prec
  | .str s => if s = "float32".toList then .ok .f32 else if s = "float64".toList then .ok .f64 else .error .keyError
  | _ => .error .keyError

/-- The first meta file (mds.py:339-372). `nit` is `len(itrs)`. -/
def initState [PyFloat F] (args : RdArgs F) (nit : Nat) (m : TileMeta F) : Py (RdState F) := do
  let v ← match m.rest.get "dataprec".toList with
    | some l => one? l
    | none => match m.rest.get "format".toList with
      | some l => one? l
      | none => .error .keyError
  let prec ← precOf v
  let dims := List.zipWith (fun i0 ie => ie - i0) m.i0s m.ies
  if dims = [] then throw .typeError
  let recshape ← dims.mapM toSize
  let nr ← match m.rest.get "nrecords".toList with
    | some l => one? l
    | none => .error .keyError
  let nrecords ← match nr with
    | .int z => toSize z
    | _ => .error .typeError
  let recs : List Int := match args.rec? with
    | none => (List.range nrecords).map (fun n : Nat => (n : Int))
    | some s => s.list
  let gx ← fromEnd m.gdims 0
  let gy ← fromEnd m.gdims 1
  let win := match args.region with
    | none => (0, gx, 0, gy)
    | some (ri0, rie, rj0, rje) =>
      (if ri0 < 0 then ri0 + gx else ri0, if rie < 0 then rie + gx else rie,
       if rj0 < 0 then rj0 + gy else rj0, if rje < 0 then rje + gy else rje)
  if ¬ (args.lev.length + 2 ≤ m.gdims.length) then throw .assertionError
  let middle := (m.gdims.take (m.gdims.length - 2)).drop args.lev.length
  let mid ← middle.mapM toSize
  let ny ← toSize (win.2.2.2 - win.2.2.1)
  let nx ← toSize (win.2.1 - win.1)
  let rdims := args.lev.map (fun l => l.list.length) ++ mid ++ [ny, nx]
  return ⟨prec, recshape, nrecords, recs, win, m.rest, ⟨nit :: recs.length :: rdims, fun _ => args.fill⟩⟩

/-- Where a tile goes: the shape of `arrtile` without its record axis, and the position in `arr` (without iteration and record axes). -/
structure Place where
  shape : List Nat
  pos : List Nat → List Nat

/-- `arr[...+sl]`: slices for the first axes, all of the others. -/
def sliceAxes (dims : List Nat) (sl : List (Int × Int)) : List (List Nat) :=
  (List.range dims.length).map fun k =>
    match sl[k]? with
    | some (a, b) => sliceList (dims.getD k 0) a b
    | none => List.range (dims.getD k 0)

/-- `arrtile` (mds.py:399-422). -/
def placeOf (dims : List Nat) (i0s ies : List Int) (m2g : Option (List (Val F))) : Py Place :=
  let sl := List.zip i0s ies
  match m2g with
  | none =>
    if dims.length < sl.length then .error .indexError
    else
      let axes := sliceAxes dims sl
      .ok ⟨axes.map List.length, NdArr.pick axes⟩
  | some l => do
    let ms ← asInts l
    let m0 : Int ← match ms[0]? with
      | some z => .ok z
      | none => .error .indexError
    let m1 : Int ← match ms[1]? with
      | some z => .ok z
      | none => .error .indexError
    let nx ← fromEnd dims 0
    let ny ← fromEnd dims 1
    let i0 ← fromEnd i0s 0
    let j0 ← fromEnd i0s 1
    let ie ← fromEnd ies 0
    let je ← fromEnd ies 1
    let jstride := m1 * nx + m0
    let n := (je - j0) * jstride
    let ii0 := min (i0 + nx * j0) (nx * ny - n)
    let ioff := nx * j0 - ii0
    let rows ← toSize (je - j0)
    let stride ← toSize jstride
    let (start, len) := sliceOf (nx * ny) ii0 (ii0 + n)
    if len ≠ rows * stride then throw .valueError
    let (col, width) := sliceOf stride (ioff + i0) (ioff + ie)
    let lead := dims.take (dims.length - 2)
    let sl2 := sl.take (sl.length - 2)
    if dims.length < sl2.length then throw .indexError
    let axes := sliceAxes (lead ++ [rows, width]) sl2
    return ⟨axes.map List.length, fun idx =>
      let q := NdArr.pick axes idx
      let p := start + q.getD lead.length 0 * stride + col + q.getD (lead.length + 1) 0
      q.take lead.length ++ [p / nx, p % nx]⟩

/-- Indices of `np.ix_` on the first axes of a shape, all of the others (mds.py:304, 354, 437). -/
def levAxes : List (List Int) → List Nat → Py (List (List Nat))
  | [], s => .ok (s.map List.range)
  | _ :: _, [] => .error .indexError
  | l :: ls, n :: s => do
    let is ← l.mapM fun z => match pyIdx n z with
      | some i => .ok i
      | none => .error .indexError
    let rest ← levAxes ls s
    return is :: rest

/-- The last two axes replaced by slices. -/
def sliceLast2 (axes : List (List Nat)) (s : List Nat) (J0 Je I0 Ie : Int) : Py (List (List Nat)) := do
  let ny ← fromEnd s 1
  let nx ← fromEnd s 0
  return axes.take (axes.length - 2) ++ [sliceList ny J0 Je, sliceList nx I0 Ie]

/-- What is read of a tile or record of shape `s` (leading record axis excluded): `levinds` and the region. -/
def sourceAxes (args : RdArgs F) (s : List Nat) (src : Option (Int × Int × Int × Int)) : Py (List (List Nat)) := do
  let axes ← levAxes (args.lev.map Sel.list) s
  match src with
  | none => return axes
  | some (I0, Ie, J0, Je) => sliceLast2 axes s J0 Je I0 Ie

/-- Lines 379-397: bounds in the target, source window. -/
def regionOf [PyFloat F] (args : RdArgs F) (win : Int × Int × Int × Int) (m : TileMeta F) :
    Py (List Int × List Int × Option (Int × Int × Int × Int)) :=
  match args.region with
  | none => .ok (m.i0s, m.ies, none)
  | some _ =>
    if m.m2g.isSome then .error .notImplemented
    else do
      let (ri0, rie, rj0, rje) := win
      let x0 ← fromEnd m.i0s 0
      let xe ← fromEnd m.ies 0
      let y0 ← fromEnd m.i0s 1
      let ye ← fromEnd m.ies 1
      let i0 := min rie (max ri0 x0)
      let ie := min rie (max ri0 xe)
      let j0 := min rje (max rj0 y0)
      let je := min rje (max rj0 ye)
      return (m.i0s.take (m.i0s.length - 2) ++ [j0 - rj0, i0 - ri0], m.ies.take (m.ies.length - 2) ++ [je - rj0, ie - ri0],
        some (i0 - x0, ie - x0, j0 - y0, je - y0))

/-- Is anything read? (mds.py:428, 439) -/
def nonEmptySrc : Option (Int × Int × Int × Int) → Bool
  | none => true
  | some (I0, Ie, J0, Je) => I0 < Ie && J0 < Je

/-- All records at once (mds.py:424-430). -/
def readAll [PyFloat F] [F64 F] [F32 F] (args : RdArgs F) (st : RdState F) (iit : Nat) (pl : Place)
    (src : Option (Int × Int × Int × Int)) (bytes : Unit → Py (List Byte)) : Py (NdArr F) :=
  if nonEmptySrc src then do
    let bs ← bytes ()
    let items : List F := itemsOf st.prec args.endian bs
    if items.length ≠ prodL (st.nrecords :: st.recshape) then throw .valueError
    let axes ← sourceAxes args st.recshape src
    let v := (NdArr.ofList Arith.zero (st.nrecords :: st.recshape) items).select (List.range st.nrecords :: axes)
    st.arr.assign (st.recs.length :: pl.shape) (fun idx => iit :: idx.take 1 ++ pl.pos (idx.drop 1)) v
  else .ok st.arr

/-- One record (mds.py:433-442). -/
def readRec [PyFloat F] [F64 F] [F32 F] (args : RdArgs F) (st : RdState F) (iit : Nat) (pl : Place)
    (src : Option (Int × Int × Int × Int)) (bs : List Byte) (arr : NdArr F) (x : Int × Nat) : Py (NdArr F) := do
  let recnum := if x.1 < 0 then x.1 + st.nrecords else x.1
  if recnum < 0 then throw .valueError
  let count := prodL st.recshape
  if nonEmptySrc src then do
    let items : List F := (itemsOf st.prec args.endian (bs.drop (recnum.toNat * count * st.prec.size))).take count
    if items.length ≠ count then throw .valueError
    let axes ← sourceAxes args st.recshape src
    arr.assign pl.shape (fun idx => iit :: x.2 :: pl.pos idx) ((NdArr.ofList Arith.zero st.recshape items).select axes)
  else return arr

/-- The meta data are compared with those of the first file (mds.py:339-376). -/
def stateFor [PyFloat F] (args : RdArgs F) (nit : Nat) (st : Option (RdState F)) (m : TileMeta F) : Py (RdState F) :=
  match st with
  | none => initState args nit m
  | some st => if m.rest.same st.metaref then .ok st else .error .valueError

/-- Lines 424-442. -/
def readTile [PyFloat F] [F64 F] [F32 F] (args : RdArgs F) (st : RdState F) (iit : Nat) (pl : Place)
    (src : Option (Int × Int × Int × Int)) (bytes : Unit → Py (List Byte)) : Py (NdArr F) :=
  match args.rec? with
  | none => readAll args st iit pl src bytes
  | some _ => do
    let bs ← bytes ()
    st.recs.zipIdx.foldlM (readRec args st iit pl src bs) st.arr

/-- One meta file (mds.py:337-443). -/
def tileStep [PyFloat F] [F64 F] [F32 F] (pf : Text → Py F) (d : MdsDir) (args : RdArgs F) (nit iit : Nat) (st : Option (RdState F))
    (metafile : Text) : Py (Option (RdState F)) := do
  let text ← d.openText metafile
  let m ← readmeta pf text
  let st ← stateFor args nit st m
  let datafile := metafile.take (metafile.length - 4) ++ "data".toList
  let (i0s, ies, src) ← regionOf args st.win m
  let pl ← placeOf (st.arr.shape.drop 2) i0s ies m.m2g
  let arr ← readTile args st iit pl src (fun _ => d.openData datafile)
  return some { st with arr := arr }

/-- One iteration (mds.py:323-443). -/
def itrStep [PyFloat F] [F64 F] [F32 F] (pf : Text → Py F) (d : MdsDir) (fname : Text) (args : RdArgs F) (nit : Nat)
    (st : Option (RdState F)) (x : Option Nat × Nat) : Py (Option (RdState F)) :=
  let name := match x.1 with
    | none => fname
    | some n => fname ++ itrText n
  match d.metafiles name with
  | [] => .error .ioError
  | files => files.foldlM (tileStep pf d args nit x.2) st

/-- The iterations (mds.py:273-296). -/
def itrsOf (d : MdsDir) (fname : Text) : Itrs → List (Option Nat)
  | .noItr => [none]
  | .one n => [some n]
  | .many l => l.map some
  | .all => (d.scan fname).map some
  | .last => ((d.scan fname).drop ((d.scan fname).length - 1)).map some

def Itrs.isList : Itrs → Bool
  | .many _ => true
  | .all => true
  | _ => false

/-- The dimensions that stay (mds.py:461-469). -/
def squeezed (args : RdArgs F) (dims : List Nat) : List Nat :=
  if args.squeeze then dims.filter (1 < ·)
  else
    let keepers := args.itrs.isList :: (match args.rec? with | none => false | some s => s.iterable) :: args.lev.map Sel.iterable
    (List.zip dims keepers).filterMap fun x => if x.2 then some x.1 else none

/-- `rdmds` (mds.py:201-479). -/
def rdmds [PyFloat F] [F64 F] [F32 F] (pf : Text → Py F) (d : MdsDir) (fname : Text) (args : RdArgs F) : Py (NdArr F) := do
  let itrs := itrsOf d fname args.itrs
  match ← itrs.zipIdx.foldlM (itrStep pf d fname args itrs.length) none with
  | none => return ⟨[0], fun _ => Arith.zero⟩
  | some st =>
    let dims := itrs.length :: st.recs.length :: args.lev.map fun l => l.list.length
    st.arr.reshape Arith.zero (squeezed args dims ++ st.arr.shape.drop (2 + args.lev.length))

/-! ## `wrmds` -/

structure WrArgs (F : Type) where
  itr : Option Nat := none
  prec : Prec := .f32
  ndims : Option Nat := none
  nrecords : Option Nat := none
  times : Option (List F) := none
  fields : Option (List Text) := none
  simulation : Option Text := none
  endian : Endian := .big

/-- The loop of lines 526-529; `dims` are the leading dimensions that are left. -/
def foldRecords (nrecords : Nat) : Nat → List Nat → Py (Nat × List Nat)
  | n, dims =>
    if nrecords ≤ n then .ok (n, dims)
    else match dims with
      | [] => .error .indexError
      | m :: dims => foldRecords nrecords (n * m) dims

/-- `ndims` (mds.py:521-532). -/
def ndimsOf (args : WrArgs F) (shape : List Nat) : Py Nat :=
  match args.ndims with
  | some n => .ok n
  | none => match args.nrecords with
    | none => .ok (min 3 shape.length)
    | some r => do
      let (n, dims) ← foldRecords r 1 shape
      if n ≠ r then throw .assertionError
      return dims.length

/-- What `wrmds` writes (mds.py:508-604): base name of the files, text of the meta file, data. -/
structure Written where
  base : Text
  text : Text
  data : List Byte

def wrmds [F64 F] [F32 F] (fe : F → Text) (fbase : Text) (arr : NdArr F) (args : WrArgs F) : Py Written := do
  let ndims ← ndimsOf args arr.shape
  let rank := arr.shape.length
  -- arr.shape[-1:-ndims-1:-1]
  let dims := arr.shape.reverse.take ndims
  -- arr.shape[:-ndims]; for ndims = 0 this is arr.shape[:0]
  let nrec := prodL (if ndims = 0 then [] else arr.shape.take (rank - ndims))
  match args.nrecords with
    | some r => if r ≠ nrec then throw .valueError
    | none => pure ()
  -- max(dims)
  if dims = [] then throw .valueError
  let base := match args.itr with
    | none => fbase
    | some n => fbase ++ itrText n
  return ⟨base, metaText fe ⟨ndims, dims, args.prec, nrec, args.itr, args.times, args.fields, args.simulation⟩,
    arr.toList.flatMap (itemBytes args.prec args.endian)⟩

/-- The directory after the files were written. -/
def MdsDir.write (d : MdsDir) (w : Written) : MdsDir :=
  let mn := w.base ++ ".meta".toList
  let dn := w.base ++ ".data".toList
  ⟨d.names ++ [mn, dn].filter (fun n => n ∉ d.names), fun n => if n = mn then w.text else d.text n,
    fun n => if n = dn then w.data else d.data n⟩

end SG
