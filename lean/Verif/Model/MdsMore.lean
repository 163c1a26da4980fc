import Verif.Model.MdsData
/-! # `mds.py`: `usememmap`, `returnmeta` and meta data as arguments of `wrmds`

`np.memmap(file,tp,shape=s)` opens the file in its default mode `'r+'`: a file that is shorter than the array is first made longer, the
new bytes being zero.  Reading this way can therefore change the directory, so the functions below return the directory as well.

Simplifications: as in `Model.MdsData`; all files can be written to; an array without elements is mapped if the file is not empty and
raises `ValueError` if it is (newer numpy versions write one byte instead). -/

namespace SG
variable {F : Type}

/-! ## Memory maps -/

/-- The directory in which the data file `n` holds `bs`. -/
def MdsDir.setData (d : MdsDir) (n : Text) (bs : List Byte) : MdsDir := { d with data := fun m => if m = n then bs else d.data m }

/-- `np.memmap(n,tp,shape=...)` for an array of `need` bytes: the directory afterwards and the bytes that are mapped. -/
def MdsDir.memmap (d : MdsDir) (n : Text) (need : Nat) : MdsDir × Py (List Byte) :=
  if n ∈ d.names then
    let bs := d.data n ++ List.replicate (need - (d.data n).length) (0 : Byte)
    if bs = [] then (d, .error .valueError)
    else (if (d.data n).length < need then d.setData n bs else d, .ok (bs.take need))
  else (d, .error .ioError)

/-- `recinds` without the levels (mds.py:352-356). -/
def recAxis (args : RdArgs F) (nrecords : Nat) : Py (List Nat) := match args.rec? with
  | none => .ok (List.range nrecords)
  | some s => s.list.mapM fun z => match pyIdx nrecords z with
    | some i => .ok i
    | none => .error .indexError

/-- Before the data are read (mds.py:338-422): state, place in the result, source window, name of the data file. -/
def tileHead [PyFloat F] (pf : Text → Py F) (d : MdsDir) (args : RdArgs F) (nit : Nat) (st : Option (RdState F)) (metafile : Text) :
    Py (RdState F × Place × Option (Int × Int × Int × Int) × Text) := do
  let text ← d.openText metafile
  let m ← readmeta pf text
  let st ← stateFor args nit st m
  let (i0s, ies, src) ← regionOf args st.win m
  let pl ← placeOf (st.arr.shape.drop 2) i0s ies m.m2g
  return (st, pl, src, metafile.take (metafile.length - 4) ++ "data".toList)

/-- `arrtile[...] = np.memmap(...)[recinds]` (mds.py:424-430), the bytes having been mapped. -/
def assignMapped [PyFloat F] [F64 F] [F32 F] (args : RdArgs F) (st : RdState F) (iit : Nat) (pl : Place)
    (src : Option (Int × Int × Int × Int)) (bs : List Byte) : Py (NdArr F) := do
  let recs ← recAxis args st.nrecords
  let axes ← sourceAxes args st.recshape src
  let v := (NdArr.ofList Arith.zero (st.nrecords :: st.recshape) (itemsOf st.prec args.endian bs)).select (recs :: axes)
  st.arr.assign (st.recs.length :: pl.shape) (fun idx => iit :: idx.take 1 ++ pl.pos (idx.drop 1)) v

/-- One meta file with `usememmap=True` (mds.py:337-430). -/
def tileStepMm [PyFloat F] [F64 F] [F32 F] (pf : Text → Py F) (args : RdArgs F) (nit iit : Nat) (d : MdsDir) (st : Option (RdState F))
    (metafile : Text) : MdsDir × Py (Option (RdState F)) :=
  match tileHead pf d args nit st metafile with
  | .error e => (d, .error e)
  | .ok (st, pl, src, datafile) =>
    if nonEmptySrc src then
      let x := d.memmap datafile (prodL (st.nrecords :: st.recshape) * st.prec.size)
      (x.1, do
        let bs ← x.2
        let arr ← assignMapped args st iit pl src bs
        return some { st with arr := arr })
    else (d, .ok (some st))

/-- A loop whose steps may change the directory; the first error ends it. -/
def dirFold {σ α : Type} (f : MdsDir → σ → α → MdsDir × Py σ) : MdsDir → σ → List α → MdsDir × Py σ
  | d, s, [] => (d, .ok s)
  | d, s, a :: l => match f d s a with
    | (d, .error e) => (d, .error e)
    | (d, .ok s) => dirFold f d s l

/-- One iteration (mds.py:323-430). -/
def itrStepMm [PyFloat F] [F64 F] [F32 F] (pf : Text → Py F) (fname : Text) (args : RdArgs F) (nit : Nat) (d : MdsDir)
    (st : Option (RdState F)) (x : Option Nat × Nat) : MdsDir × Py (Option (RdState F)) :=
  let name := match x.1 with
    | none => fname
    | some n => fname ++ itrText n
  match d.metafiles name with
  | [] => (d, .error .ioError)
  | files => dirFold (tileStepMm pf args nit x.2) d st files

/-- The end of `rdmds` (mds.py:456-471). -/
def finishRd [PyFloat F] (args : RdArgs F) (nit : Nat) : Option (RdState F) → Py (NdArr F)
  | none => .ok ⟨[0], fun _ => Arith.zero⟩
  | some st =>
    let dims := nit :: st.recs.length :: args.lev.map fun l => l.list.length
    st.arr.reshape Arith.zero (squeezed args dims ++ st.arr.shape.drop (2 + args.lev.length))

/-- `rdmds(...,usememmap=True)` (mds.py:201-479): the directory afterwards and the result. -/
def rdmdsMm [PyFloat F] [F64 F] [F32 F] (pf : Text → Py F) (d : MdsDir) (fname : Text) (args : RdArgs F) : MdsDir × Py (NdArr F) :=
  let itrs := itrsOf d fname args.itrs
  let x := dirFold (itrStepMm pf fname args itrs.length) d none itrs.zipIdx
  (x.1, x.2 >>= finishRd args itrs.length)

/-! ## Returned meta data -/

/-- Values of the meta dictionary that `rdmds` returns and of keyword arguments: an item, a list of items, a list of lists. -/
inductive MetaVal (F : Type)
  | item (v : Val F)
  | list (l : List (Val F))
  | lists (l : List (List (Val F)))

/-- A dictionary with such values. -/
abbrev MetaDict (F : Type) := List (Text × MetaVal F)

def MetaDict.get (d : MetaDict F) (k : Text) : Option (MetaVal F) := (d.find? fun e => e.1 = k).map (·.2)
def MetaDict.put (d : MetaDict F) (k : Text) (v : MetaVal F) : MetaDict F := (d.filter fun e => e.1 ≠ k) ++ [(k, v)]

/-- `k.lower()` for ASCII. -/
def lowerText (k : Text) : Text := k.map Char.toLower

/-- `metaref` (mds.py:372): the entries of the first meta file. -/
def metaRef (pf : Text → Py F) (d : MdsDir) (fname : Text) : List (Option Nat) → Py (Dict F)
  | [] => .ok []
  | it :: _ =>
    match d.metafiles (match it with | none => fname | some n => fname ++ itrText n) with
    | [] => .error .ioError
    | n :: _ => do
      let text ← d.openText n
      let m ← readmeta pf text
      return m.rest

/-- `timestep` and `timeinterval` (mds.py:338, 444-448) after the last meta file of an iteration. -/
def itrTimes (pf : Text → Py F) (d : MdsDir) (fname : Text) (it : Option Nat) : Py (Option (List (Val F)) × Option (List (Val F))) :=
  match (d.metafiles (match it with | none => fname | some n => fname ++ itrText n)).getLast? with
  | none => .error .ioError
  | some n => do
    let text ← d.openText n
    let es ← parsemeta pf text
    return (es.get "timeStepNumber".toList, es.get "timeInterval".toList)

/-- The dictionary returned (mds.py:450-455, 473-475). -/
def metaOut (ref : Dict F) (ts : List (Option (List (Val F)) × Option (List (Val F)))) : MetaDict F :=
  let steps := ts.flatMap fun t => t.1.getD []
  let ivals := ts.filterMap (·.2)
  let all : MetaDict F := ref.map (fun e => (e.1, .list e.2)) ++
    (if steps = [] then [] else [("timeStepNumber".toList, .list steps)]) ++
    (if ivals = [] then [] else [("timeInterval".toList, .lists ivals)])
  all.foldl (fun m e => m.put (lowerText e.1) e.2) []

/-- The iteration numbers returned: the list `itrs`, `[-1]` if none was asked for (mds.py:296). -/
def itrsOut (l : List (Option Nat)) : List Int := l.map fun
  | none => -1
  | some n => (n : Int)

/-- `rdmds(...,returnmeta=True)` (mds.py:473-476).  The meta files are parsed a second time here. -/
def rdmdsMeta [PyFloat F] [F64 F] [F32 F] (pf : Text → Py F) (d : MdsDir) (fname : Text) (args : RdArgs F) :
    Py (NdArr F × List Int × MetaDict F) := do
  let itrs := itrsOf d fname args.itrs
  let a ← rdmds pf d fname args
  let ref ← metaRef pf d fname itrs
  let ts ← itrs.mapM (itrTimes pf d fname)
  return (a, itrsOut itrs, metaOut ref ts)

/-! ## `wrmds(fbase,arr,**kw)` -/

/-- `if type(x) == type([]): x, = x` (mds.py:508-513). -/
def unpack1 : MetaVal F → Py (Val F)
  | .item v => .ok v
  | .list l => one? l
  | .lists _ => .error .typeError

def valNat : Val F → Py Nat
  | .int z => toSize z
  | _ => .error .typeError

def valText : Val F → Py Text
  | .str s => .ok s
  | _ => .error .typeError

/-- `_typesuffixes[dataprec]` with its error (mds.py:516-519). -/
def valPrec : Val F → Py Prec
  | .str s => if s = "float32".toList then .ok .f32 else if s = "float64".toList then .ok .f64 else .error .valueError
  | _ => .error .valueError

/-- `machineformat` (mds.py:190-196, 515) -/
def valEndian : Val F → Py Endian
  | .str s =>
    if s ∈ ["ieee-be".toList, "b".toList, ">".toList] then .ok .big
    else if s ∈ ["ieee-le".toList, "l".toList, "<".toList] then .ok .little
    else .error .keyError
  | _ => .error .keyError

def listOf : MetaVal F → Py (List (Val F))
  | .list l => .ok l
  | _ => .error .typeError

/-- One keyword argument: the arguments so far and `dimlist`. -/
def kwStep (a : WrArgs F × Option (List (Val F))) (e : Text × MetaVal F) : Py (WrArgs F × Option (List (Val F))) :=
  if e.1 = "dataprec".toList then do let v ← unpack1 e.2; let p ← valPrec v; return ({ a.1 with prec := p }, a.2)
  else if e.1 = "ndims".toList then do let v ← unpack1 e.2; let n ← valNat v; return ({ a.1 with ndims := some n }, a.2)
  else if e.1 = "nrecords".toList then do let v ← unpack1 e.2; let n ← valNat v; return ({ a.1 with nrecords := some n }, a.2)
  else if e.1 = "simulation".toList then do let v ← unpack1 e.2; let s ← valText v; return ({ a.1 with simulation := some s }, a.2)
  else if e.1 = "machineformat".toList then do let v ← unpack1 e.2; let x ← valEndian v; return ({ a.1 with endian := x }, a.2)
  else if e.1 = "dimlist".toList then do let l ← listOf e.2; return (a.1, some l)
  else if e.1 = "fields".toList then do let l ← listOf e.2; let fs ← l.mapM valText; return ({ a.1 with fields := some fs }, a.2)
  else .error .typeError

/-- The parameters of `wrmds` after `fbase` and `arr` (mds.py:482-484), without `itr`, `times` and `deltat`, which `wrmdsKw` does not
take. -/
def wrKeys : List Text := ["dataprec".toList, "ndims".toList, "nrecords".toList, "fields".toList, "simulation".toList,
  "machineformat".toList, "dimlist".toList]

/-- `wrmds(fbase,arr,**kw)`.  A keyword that is not a parameter raises `TypeError` before anything is done. -/
def wrmdsKw [F64 F] [F32 F] (fe : F → Text) (fbase : Text) (arr : NdArr F) (kw : MetaDict F) : Py Written := do
  if kw.any fun e => e.1 ∉ wrKeys then throw .typeError
  let (args, dimlist) ← kw.foldlM kwStep ({}, none)
  let w ← wrmds fe fbase arr args
  match dimlist with
  | none => return w
  | some l => do
    let nd ← ndimsOf args arr.shape
    -- tuple(dimlist) != dims (mds.py:538)
    match asInts l with
    | .ok zs => if zs = (arr.shape.reverse.take nd).map (fun n : Nat => (n : Int)) then return w else throw .valueError
    | .error _ => throw .valueError

end SG
