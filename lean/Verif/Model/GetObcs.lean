import Verif.Model.Regrid
import Verif.Model.Mds2Mitgrid
import Verif.Base.Text
/-! # `getobcs.py`

Text (file names) is a list of characters.  The outside world of a call:

* `Files`, the grid files;
* `RunDir`, the MITgcm results directory: the file names in it and what `mds.rdmds` returns;
* `Xesmf`, the interpolation package: an arbitrary function from two grids to weights, and an arbitrary application of weights;
* `Disk`, the results directory: weight files and boundary files; it is what a call changes.

A call is a function from the disk to the disk afterwards and an outcome; `none` means that a `regrid` loop is still
running after `fuel` tests (see `Model/Regrid.lean`).

Not modelled: `verbose` printing; creation of the results directory (line 273-274); aliasing of the two
grid dictionaries; the rotation `regrid` leaves in a caller's dictionary (that is C36); results whose number of depths decreases
with time (there line 422 hands a 3-d array to the interpolator; here `ValueError`); `T.*.data` names whose first digits are
not ASCII; failing writes (`fd.close` without parentheses leaves closing to garbage collection; contents are taken afterwards). -/

namespace SG
variable {F W : Type} [PyFloat F]

/-! ## Actions on a disk -/

/-- State afterwards and outcome; `none`: does not return. -/
def Act (σ α : Type) := σ → Option (σ × Py α)

namespace Act
variable {σ α β : Type}
def pure (a : α) : Act σ α := fun s => some (s, .ok a)
/-- An exception ends the call; what was already done to the state stays. -/
def bind (m : Act σ α) (f : α → Act σ β) : Act σ β := fun s =>
  match m s with
  | none => none
  | some (s', .ok a) => f a s'
  | some (s', .error e) => some (s', .error e)
def lift (x : Py α) : Act σ α := fun s => some (s, x)
end Act

/-! ## Weight files -/

/-- `weightfilename(interp_meth,grid_in,grid_out,response_type,netcdf_ext)` (getobcs.py:66-92) for grids of the given
shapes; `netcdf_ext` is not used by the format string. -/
def weightfilename (meth : Text) (shapeIn shapeOut : Nat × Nat) (resp : Text) (_ext : Text) : Text :=
  meth ++ '_' :: natText shapeIn.1 ++ 'x' :: natText shapeIn.2 ++ '_' :: natText shapeOut.1 ++ 'x' :: natText shapeOut.2
    ++ '_' :: resp ++ ['.', 'n', 'c']

/-- `os.path.join(dir,name)` for a relative, nonempty `name`. -/
def pathJoin (dir name : Text) : Text :=
  if dir = [] ∨ dir.getLast? = some '/' then dir ++ name else dir ++ '/' :: name

/-- xESMF. `build gridIn gridOut` are the weights computed from the `lon`, `lat` arrays of the two grids;
`apply w shapeIn shapeOut m` is the interpolated array. -/
structure Xesmf (F W : Type) where
  build : Mat F × Mat F → Mat F × Mat F → Py W
  apply : W → Nat × Nat → Nat × Nat → Mat F → Py (Mat F)

/-- A constructed `xe.Regridder`. -/
structure Regridder (W : Type) where
  w : W
  shapeIn : Nat × Nat
  shapeOut : Nat × Nat

/-- What is on disk in (and around) the results directory, by full path. -/
structure Disk (W : Type) where
  weights : Text → Option W
  out : Text → Option (List Byte)

/-- `INTERP_METH` (getobcs.py:22). -/
def interpMeth : Text := "bilinear".toList

/-- `xe.Regridder(gin,gout,INTERP_METH,filename=..,reuse_weights=True)` preceded by `weightfilename`
(getobcs.py:287-291, 318-321, 329-332).  xESMF: if the file exists its weights are used, otherwise weights are
computed and written to it. -/
def openRegridder (xe : Xesmf F W) (dir : Text) (gin gout : Mat F × Mat F) (resp : Text) :
    Act (Disk W) (Regridder W) := fun k =>
  let shapeIn := (gin.1.rows, gin.1.cols)
  let shapeOut := (gout.1.rows, gout.1.cols)
  let name := pathJoin dir (weightfilename interpMeth shapeIn shapeOut resp ".nc".toList)
  match k.weights name with
  | some w => some (k, .ok ⟨w, shapeIn, shapeOut⟩)
  | none =>
    match xe.build gin gout with
    | .error e => some (k, .error e)
    | .ok w =>
      some ({ k with weights := fun n => if n = name then some w else k.weights n }, .ok ⟨w, shapeIn, shapeOut⟩)

/-! ## Grids -/

/-- A parent or regional grid dictionary: `rest` for the entries other than `XG`, `YG`; these two with their memory order
(or the exception their use raises). -/
structure ObGrid (F : Type) where
  rest : Grid F
  xg : Py (NArr F)
  yg : Py (NArr F)

def ObGrid.ofGrid (mk : Mat F → NArr F) (g : Grid F) : ObGrid F :=
  ⟨g, (g.arr .XG).map mk, (g.arr .YG).map mk⟩

/-- `grid['XC'].shape`, `grid['XC']` handed to `weightfilename`: `KeyError`, `AttributeError`. -/
def Grid.shaped (g : Grid F) (f : Field) : Py (Mat F) :=
  match g f with
  | .absent => .error .keyError
  | .none_ => .error .attributeError
  | .arr m => .ok m

/-- A MITgcm run directory: file names; `mds.rdmds(rundir+os.sep+name)`; `mds.rdmds(rundir/response,time).T`. -/
structure Vol (F : Type) where
  rows : Nat
  cols : Nat
  /-- `none`: a 2-d array -/
  depths : Option Nat
  get : Nat → Nat → Nat → F

structure RunDir (F : Type) where
  names : List Text
  grid : Field → Option (Mat F)
  read : Text → Nat → Py (Vol F)

/-- A boundary index argument: missing, an int, or a vector. -/
inductive ObArg
  | missing
  | scalar (z : Int)
  | vec (l : List Int)

/-- The boundaries, in the order of the dictionary (getobcs.py:356-383). -/
inductive Side | N | S | E | W
deriving DecidableEq, Repr

def Side.all : List Side := [.N, .S, .E, .W]

/-- Keyword arguments of `getobcs` (getobcs.py:150-163). -/
structure ObcsArgs (F : Type) where
  strict : Bool
  parentFile : Option String
  niParent : Option Nat
  njParent : Option Nat
  parentMatrices : Option (MatDict F)
  regionalFile : Option String
  niRegional : Option Nat
  njRegional : Option Nat
  regionalMatrices : Option (MatDict F)
  parentResultsdir : Option Text
  ob : Side → ObArg
  resultsdir : Option Text

/-- A grid from a file (getobcs.py:175-183, 204-212) or a dictionary (184-189, 213-218); `none` if neither is given. -/
def fileOrMatrices [F64 F] (fs : Files F) (strict : Bool) (file : Option String) (ni nj : Option Nat)
    (matrices : Option (MatDict F)) : Option (Py (ObGrid F × Nat × Nat)) :=
  match strTruthy file with
  | some f =>
    match natTruthy ni, natTruthy nj with
    | some ni, some nj => some do
      let b ← fs.open f
      let g ← readMitgrid b ni nj strict
      return (.ofGrid .ofF g, ni, nj)
    | _, _ => some (.error .valueError)
  | none =>
    match matrices with
    | some d => some do
      let xc ← d.rest.shaped .XC
      return (⟨d.rest, .ok d.xg, .ok d.yg⟩, xc.rows, xc.cols)
    | none => none

/-- The parent grid (getobcs.py:175-194). -/
def parentGrid [F64 F] (fs : Files F) (run : RunDir F) (a : ObcsArgs F) : Py (ObGrid F × Nat × Nat) :=
  match fileOrMatrices fs a.strict a.parentFile a.niParent a.njParent a.parentMatrices with
  | some r => r
  | none =>
    let (g, ni, nj) := mds2mitgrid run.grid
    .ok (.ofGrid .ofC g, ni, nj)

/-- The regional grid (getobcs.py:204-221). -/
def regionalGrid [F64 F] (fs : Files F) (a : ObcsArgs F) : Py (ObGrid F × Nat × Nat) :=
  match fileOrMatrices fs a.strict a.regionalFile a.niRegional a.njRegional a.regionalMatrices with
  | some r => r
  | none => .error .valueError

/-! ## Boundary index vectors -/

/-- Default vectors (getobcs.py:240, 244, 248, 252). -/
def obDefault (s : Side) (ni nj : Nat) : List Int :=
  match s with
  | .N => List.replicate ni (nj : Int)
  | .S => List.replicate ni 1
  | .E => List.replicate nj (ni : Int)
  | .W => List.replicate nj 1

/-- Lines 239-254 for one side: the vector and the `do` flag.  `not array` is the truth value of the only element, true for `None`
and for an empty vector (older numpy), and raises `ValueError` for more than one element; `any` of a scalar raises `TypeError`. -/
def obVector (s : Side) (ni nj : Nat) : ObArg → Py (List Int × Bool)
  | .missing => .ok (obDefault s ni nj, true)
  | .scalar z => if z = 0 then .ok (obDefault s ni nj, true) else .error .typeError
  | .vec [] => .ok (obDefault s ni nj, true)
  | .vec [z] =>
    if z = 0 then .ok (obDefault s ni nj, true)
    else .ok ([z], [z].any (fun z => decide (z ≠ 0)))
  | .vec (_ :: _ :: _) => .error .valueError

/-- Lines 258-265 for one side: negative indices (N and E only), then zero-based. -/
def obZeroBased (s : Side) (ni nj : Nat) (v : List Int × Bool) : List Int × Bool :=
  if v.2 then
    match s with
    | .N => (v.1.map fun j => (if j < 0 then (nj : Int) + 1 + j else j) - 1, true)
    | .S => (v.1.map fun j => j - 1, true)
    | .E => (v.1.map fun i => (if i < 0 then (ni : Int) + 1 + i else i) - 1, true)
    | .W => (v.1.map fun i => i - 1, true)
  else v

/-- Lines 238-265. -/
def obVectors (ob : Side → ObArg) (ni nj : Nat) : Py (Side → List Int × Bool) := do
  let n ← obVector .N ni nj (ob .N)
  let s ← obVector .S ni nj (ob .S)
  let e ← obVector .E ni nj (ob .E)
  let w ← obVector .W ni nj (ob .W)
  return fun
    | .N => obZeroBased .N ni nj n
    | .S => obZeroBased .S ni nj s
    | .E => obZeroBased .E ni nj e
    | .W => obZeroBased .W ni nj w

/-! ## Responses -/

/-- The kind of point a response lives on. -/
inductive Kind | tracer | u | v
deriving DecidableEq, Repr

/-- `tracer_responses+u_responses+v_responses` (getobcs.py:390-394). -/
inductive Resp | T | S | Eta | W | U | UICE | V | VICE
deriving DecidableEq, Repr

namespace Resp
def all : List Resp := [.T, .S, .Eta, .W, .U, .UICE, .V, .VICE]
def name : Resp → Text
  | .T => ['T'] | .S => ['S'] | .Eta => ['E', 't', 'a'] | .W => ['W']
  | .U => ['U'] | .UICE => ['U', 'I', 'C', 'E'] | .V => ['V'] | .VICE => ['V', 'I', 'C', 'E']
def kind : Resp → Kind
  | .T | .S | .Eta | .W => .tracer
  | .U | .UICE => .u
  | .V | .VICE => .v
end Resp

def Side.letter : Side → Char
  | .N => 'N' | .S => 'S' | .E => 'E' | .W => 'W'

/-- `'OB'+ob+response.lower()` (getobcs.py:480). -/
def obFileName (s : Side) (r : Resp) : Text := 'O' :: 'B' :: s.letter :: r.name.map Char.toLower

/-- Does a file name match the pattern `response+'.*.data'` of `glob` (getobcs.py:341, 395)? -/
def isResult (resp : Text) (name : Text) : Bool :=
  (resp ++ ['.']).isPrefixOf name && ['.', 'd', 'a', 't', 'a'].isSuffixOf (name.drop (resp.length + 1))

/-- `int(re_time.findall(name)[0])` (getobcs.py:340): the first run of digits. -/
def firstNumber (name : Text) : Py Nat :=
  match (name.dropWhile fun c => !c.isDigit).takeWhile Char.isDigit with
  | [] => .error .indexError
  | ds => .ok (textVal ds)

/-- `sorted` of a list of ints. -/
def insertSorted (n : Nat) : List Nat → List Nat
  | [] => [n]
  | m :: l => if n ≤ m then n :: m :: l else m :: insertSorted n l
def pySorted (l : List Nat) : List Nat := l.foldr insertSorted []

/-- Lines 339-341. -/
def resultTimes (run : RunDir F) : Py (List Nat) := do
  let ts ← (run.names.filter (isResult Resp.T.name)).mapM firstNumber
  return pySorted ts

/-- An open boundary array. -/
structure Arr3 (F : Type) where
  n0 : Nat
  n1 : Nat
  n2 : Nat
  get : Nat → Nat → Nat → F

/-- Number of positions along a boundary (`'shape'`, getobcs.py:361, 368, 375, 382). -/
def Side.len (s : Side) (ni nj : Nat) : Nat :=
  match s with
  | .N | .S => ni
  | .E | .W => nj

/-- The index pairs of a partition (getobcs.py:358-381), `ob` zero-based. -/
def partitionOf (s : Side) (k : Kind) (ob : List Int) : List (Int × Int) :=
  let ar : List Int := (List.range ob.length).map Int.ofNat
  match s, k with
  | .N, _ => ar.zip ob
  | .S, .v => ar.zip (ob.map (· + 1))
  | .S, _ => ar.zip ob
  | .E, _ => ob.zip ar
  | .W, .u => (ob.map (· + 1)).zip ar
  | .W, _ => ob.zip ar

/-- `regional_results[partition]` (fancy indexing). -/
def takeCells (m : Mat F) (p : List (Int × Int)) : Py (List F) := p.mapM fun ij => m.atI ij.1 ij.2

/-- `ob_array[:,d,t] = vals` (getobcs.py:456-463): `ValueError` unless the length fits or is one (broadcast). -/
def setLine (a : Arr3 F) (d t : Nat) (vals : List F) : Py (Arr3 F) :=
  if vals.length = a.n0 ∨ vals.length = 1 then
    .ok { a with get := fun p d' t' =>
      if d' = d ∧ t' = t then vals.getD (if vals.length = a.n0 then p else 0) Arith.zero else a.get p d' t' }
  else .error .valueError

/-- `parent_results[:,:,d]`, or the whole array when it is 2-d (getobcs.py:420-423). -/
def atDepth (v : Vol F) (d : Nat) : Py (Mat F) :=
  match v.depths with
  | none => .ok ⟨v.rows, v.cols, fun i j => v.get i j 0⟩
  | some n => if d < n then .ok ⟨v.rows, v.cols, fun i j => v.get i j d⟩ else .error .valueError

/-- Zero padding of velocity results to the interpolator's size (getobcs.py:431-436, 444-449). -/
def padTo (shape : Nat × Nat) (m : Mat F) : Py (Mat F) :=
  if shape = (m.rows, m.cols) then .ok m
  else (Mat.full shape.1 shape.2 Arith.zero).setBlock 0 m.rows 0 m.cols m

/-- Interpolation of one response at one depth (getobcs.py:419-450). -/
def interpolate (xe : Xesmf F W) (r : Kind → Regridder W) (k : Kind) (v : Vol F) (d : Nat) : Py (Mat F) := do
  let m ← atDepth v d
  let m ← (match k with
    | .tracer => .ok m
    | _ => padTo (r k).shapeIn m)
  xe.apply (r k).w (r k).shapeIn (r k).shapeOut m

/-- The number of depths of a response (getobcs.py:405-409).  An `IndexError` raised inside `rdmds` is swallowed too. -/
def depthCount (v : Py (Vol F)) : Py Nat :=
  match v with
  | .ok v => .ok (v.depths.getD 1)
  | .error .indexError => .ok 1
  | .error e => .error e

/-- The two loops over times and depths for one response (getobcs.py:401-475).  `obs` are the index vectors with their
`do` flags; arrays of sides that are off are left alone. -/
def assemble (xe : Xesmf F W) (r : Kind → Regridder W) (run : RunDir F) (obs : Side → List Int × Bool)
    (ni nj : Nat) (times : List Nat) (resp : Resp) : Py (Side → Arr3 F) := do
  let nd ← depthCount (run.read resp.name (times.headD 0))
  let init : Side → Arr3 F := fun s => ⟨s.len ni nj, nd, times.length, fun _ _ _ => Arith.zero⟩
  (List.range times.length).foldlM (fun arrs t => do
    let v ← run.read resp.name (times.getD t 0)
    (List.range nd).foldlM (fun arrs d => do
      let m ← interpolate xe r resp.kind v d
      Side.all.foldlM (fun (arrs : Side → Arr3 F) s =>
        if (obs s).2 then do
          let vals ← takeCells m (partitionOf s resp.kind (obs s).1)
          let a ← setLine (arrs s) d t vals
          return fun s' => if s' = s then a else arrs s'
        else .ok arrs) arrs) arrs) init

/-- `np.asfortranarray(a,dtype='>f8').tofile(fd)` (getobcs.py:479-482): numpy's `tofile` writes the elements in C order
(last index fastest) whatever the memory layout. -/
def arr3Bytes [F64 F] (a : Arr3 F) : List Byte :=
  ((List.range a.n0).flatMap fun p => (List.range a.n1).flatMap fun d => (List.range a.n2).map fun t =>
    a.get p d t).flatMap fun v => beBytes (F64.toBits v)

/-- Writing the files of one response (getobcs.py:477-483). -/
def writeObs [F64 F] (dir : Text) (resp : Resp) (obs : Side → List Int × Bool) (arrs : Side → Arr3 F)
    (k : Disk W) : Disk W :=
  Side.all.foldl (fun k s =>
    if (obs s).2 then
      { k with out := fun n => if n = pathJoin dir (obFileName s resp) then some (arr3Bytes (arrs s)) else k.out n }
    else k) k

/-- The loop over responses (getobcs.py:394-483). -/
def responses [F64 F] (xe : Xesmf F W) (r : Kind → Regridder W) (run : RunDir F) (obs : Side → List Int × Bool)
    (ni nj : Nat) (times : List Nat) (dir : Text) : List Resp → Act (Disk W) Unit
  | [] => Act.pure ()
  | resp :: rest => fun k =>
    if run.names.any (isResult resp.name) then
      match assemble xe r run obs ni nj times resp with
      | .error e => some (k, .error e)
      | .ok arrs => responses xe r run obs ni nj times dir rest (writeObs dir resp obs arrs k)
    else responses xe r run obs ni nj times dir rest k

/-! ## The whole call -/

/-- One of the two calls of `regrid` (getobcs.py:295-310) and its result. -/
def doubled [F64 F] (geod : Geod F) (fs : Files F) (fuel : Nat) (g : ObGrid F) (ni nj : Nat) :
    Act (Disk W) (Grid F) :=
  Act.bind (Act.lift do
    let x ← g.xg
    let lon1 ← x.mat.atI 0 (-1)
    let y ← g.yg
    let lat1 ← y.mat.atI 0 (-1)
    let lon2 ← x.mat.atI (-1) 0
    let lat2 ← y.mat.atI (-1) 0
    return (⟨false, none, none, none, some ⟨x, y, g.rest⟩, some ni, some nj, lon1, lat1, lon2, lat2, 2, 2⟩ : RegridArgs F))
  fun a k =>
    match regrid geod fs fuel a with
    | none => none
    | some (_, .error e) => some (k, .error e)
    | some (_, .ok r) => some (k, .ok r.1)

/-- `lon`, `lat` of the `u` points (getobcs.py:312-317): `[0::2,1::2]`. -/
def uPoints (g : Grid F) : Py (Mat F × Mat F) := do
  let x ← g.arr .XG
  let y ← g.arr .YG
  return (x.strided 0 x.rows 2 1 x.cols 2, y.strided 0 y.rows 2 1 y.cols 2)

/-- `lon`, `lat` of the `v` points (getobcs.py:323-328): `[1::2,0::2]`. -/
def vPoints (g : Grid F) : Py (Mat F × Mat F) := do
  let x ← g.arr .XG
  let y ← g.arr .YG
  return (x.strided 1 x.rows 2 0 x.cols 2, y.strided 1 y.rows 2 0 y.cols 2)

/-- `lon`, `lat` of the tracer points (getobcs.py:281-286); only the shape of `lon` is looked at (91), `None` has none. -/
def cPoints (g : Grid F) : Py (Mat F × Mat F) := do
  let x ← g.shaped .XC
  let y ← g.shaped .YC
  return (x, y)

/-- `str.rstrip('/')` -/
def rstripSlash (t : Text) : Text := (t.reverse.dropWhile (· == '/')).reverse

/-- Line 271-272. -/
def resultsDirOf (a : ObcsArgs F) (parent : Text) : Text :=
  match a.resultsdir with
  | some (c :: d) => c :: d
  | _ => rstripSlash parent ++ "_obcs".toList

/-- The three interpolators (getobcs.py:281-332). -/
def regridders [F64 F] (geod : Geod F) (fs : Files F) (fuel : Nat) (xe : Xesmf F W) (dir : Text)
    (p : ObGrid F × Nat × Nat) (g : ObGrid F × Nat × Nat) : Act (Disk W) (Kind → Regridder W) :=
  Act.bind (Act.lift (cPoints p.1.rest)) fun cp =>
  Act.bind (Act.lift (cPoints g.1.rest)) fun cg =>
  Act.bind (openRegridder xe dir cp cg "tracer".toList) fun rt =>
  Act.bind (doubled geod fs fuel p.1 p.2.1 p.2.2) fun dp =>
  Act.bind (doubled geod fs fuel g.1 g.2.1 g.2.2) fun dg =>
  Act.bind (Act.lift (uPoints dp)) fun up =>
  Act.bind (Act.lift (uPoints dg)) fun ug =>
  Act.bind (openRegridder xe dir up ug ['U']) fun ru =>
  Act.bind (Act.lift (vPoints dp)) fun vp =>
  Act.bind (Act.lift (vPoints dg)) fun vg =>
  Act.bind (openRegridder xe dir vp vg ['V']) fun rv =>
  Act.pure fun
    | .tracer => rt
    | .u => ru
    | .v => rv

/-- `getobcs(...)` (getobcs.py:95-483).  `runs` gives the contents of run directories by path. -/
def getobcs [F64 F] (geod : Geod F) (fs : Files F) (fuel : Nat) (xe : Xesmf F W) (runs : Text → RunDir F)
    (a : ObcsArgs F) : Act (Disk W) Unit :=
  match a.parentResultsdir with
  | none => Act.lift (.error .valueError)
  | some [] => Act.lift (.error .valueError)
  | some (c :: d) =>
    let run := runs (c :: d)
    Act.bind (Act.lift (parentGrid fs run a)) fun p =>
    Act.bind (Act.lift (regionalGrid fs a)) fun g =>
    Act.bind (Act.lift (obVectors a.ob g.2.1 g.2.2)) fun obs =>
    let dir := resultsDirOf a (c :: d)
    Act.bind (regridders geod fs fuel xe dir p g) fun r =>
    Act.bind (Act.lift (resultTimes run)) fun times =>
    Act.bind (Act.lift (match times with
      | [] => .error .indexError
      | t :: _ => run.read Resp.T.name t)) fun _ =>
    responses xe r run obs g.2.1 g.2.2 times dir Resp.all

end SG
