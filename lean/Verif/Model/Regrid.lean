import Verif.Model.MkGrid
import Verif.Model.Nearest
/-! # `regrid.py`

The `while` loop of lines 184-193 need not terminate: functions take a bound `fuel` on the number of
loop tests, `none` meaning "still running".  Whether some bound suffices is a property (C30, C31).

Not modelled: `verbose` printing; missing `lon1..lat2`, subscales (`None`); negative `ni`, `nj`;
`mitgrid_matrices` whose `XG`/`YG` entries are missing or not 2-d arrays. -/

namespace SG
variable {F : Type} [PyFloat F]

/-- Index pairs `(i_nw,j_nw)`, `(i_se,j_se)`. -/
abbrev Corners := (Int × Int) × (Int × Int)

/-- The two `util.nearest` calls (regrid.py:176-177, 190-191). -/
def locate (geod : Geod F) (lon1 lat1 lon2 lat2 : F) (s : NArr F × NArr F) : Py Corners := do
  let nw ← nearest geod lon1 lat1 s.1 s.2
  let se ← nearest geod lon2 lat2 s.1 s.2
  return ((nw.1, nw.2.1), (se.1, se.2.1))

/-- `j_nw>j_se and i_se>i_nw` (regrid.py:184). -/
def aligned (c : Corners) : Bool := decide (c.1.2 > c.2.2) && decide (c.2.1 > c.1.1)

/-- The rotation loop (regrid.py:184-193) on the arrays `mitgrid['XG']`, `mitgrid['YG']`: their final values
(also when an exception is raised) and the final corner indices. -/
def align (geod : Geod F) (lon1 lat1 lon2 lat2 : F) :
    Nat → NArr F × NArr F → Corners → Option ((NArr F × NArr F) × Py Corners)
  | 0, _, _ => none
  | fuel + 1, s, c =>
    if aligned c then some (s, .ok c)
    else
      let s' := (s.1.rot90, s.2.rot90)
      match locate geod lon1 lat1 lon2 lat2 s' with
      | .error e => some (s', .error e)
      | .ok c' => align geod lon1 lat1 lon2 lat2 fuel s' c'

/-- Steps 1-3 (regrid.py:245-319) for located corners `c` (in range, distinct rows and columns).
The copy loop (nditer, memory order) is taken in index order: for nonzero subscales its writes
are to distinct elements, and for zero subscales `fill` raises.  When `fill` is reached both
subscales are non-negative, so `toNat` loses nothing. -/
def regridBlock (geod : Geod F) (xg yg : Mat F) (c : Corners) (lonSub latSub : Int) :
    Py (Grid F × Int × Int) := do
  let ilbM := min c.1.1 c.2.1                                         -- 245-246
  let jlbM := min c.1.2 c.2.2
  let iubM := max c.1.1 c.2.1
  let jubM := max c.1.2 c.2.2
  let iub := 1 + 2 * lonSub * (iubM - ilbM)                           -- 249-256
  let jub := 1 + 2 * latSub * (jubM - jlbM)
  let cx ← zerosI (iub + 1 + 1) (jub + 1 + 1)                         -- 259-262
  let cy ← zerosI (iub + 1 + 1) (jub + 1 + 1)
  let bx := xg.strided ilbM.toNat (iubM + 1).toNat 1 jlbM.toNat (jubM + 1).toNat 1   -- 271-273
  let by_ := yg.strided ilbM.toNat (iubM + 1).toNat 1 jlbM.toNat (jubM + 1).toNat 1
  let s ← forIJ (List.range bx.rows) (List.range bx.cols)             -- 275-282
    (fun (s : Mat F × Mat F) i j => do
      let x ← s.1.setAtI (1 + 2 * lonSub * i) (1 + 2 * latSub * j) (bx.get i j)
      let y ← s.2.setAtI (1 + 2 * lonSub * i) (1 + 2 * latSub * j) (by_.get i j)
      return (x, y)) (cx, cy)
  let s ← fill geod s.1 s.2 1 iub.toNat 1 jub.toNat lonSub.toNat latSub.toNat         -- 305-307
  let outgrid ← tomitgrid geod s.1 s.2 0 1 iub.toNat (iub.toNat + 1)
    0 1 jub.toNat (jub.toNat + 1)                                     -- 313-314
  return (outgrid, (iubM - ilbM) * lonSub, (jubM - jlbM) * latSub)    -- 316-319

/-- `regrid` once `mitgrid['XG']`, `mitgrid['YG']` are known (regrid.py:176-319): their final values and the
outcome. -/
def regridXY (geod : Geod F) (lon1 lat1 lon2 lat2 : F) (lonSub latSub : Int) (fuel : Nat)
    (s : NArr F × NArr F) : Option ((NArr F × NArr F) × Py (Grid F × Int × Int)) :=
  match locate geod lon1 lat1 lon2 lat2 s with
  | .error e => some (s, .error e)
  | .ok c =>
    if c.1.1 = c.2.1 ∨ c.1.2 = c.2.2 then some (s, .error .valueError)   -- 180-181
    else
      match align geod lon1 lat1 lon2 lat2 fuel s c with
      | none => none
      | some (s', .error e) => some (s', .error e)
      | some (s', .ok c') => some (s', regridBlock geod s'.1.mat s'.2.mat c' lonSub latSub)

/-! ## Sources -/

/-- A grid dictionary whose `XG`, `YG` are arrays with memory order; `rest` has the other entries
(its own `XG`, `YG` are ignored). -/
structure MatDict (F : Type) where
  xg : NArr F
  yg : NArr F
  rest : Grid F

/-- The outside world: binary files, and `np.loadtxt(name,delimiter=',')` (assumed to return a 2-d array). -/
structure Files (F : Type) where
  bin : String → Option (List Byte)
  csv : String → Py (Mat F)

/-- `np.fromfile` on a named file. -/
def Files.open (fs : Files F) (name : String) : Py (List Byte) :=
  match fs.bin name with
  | some b => .ok b
  | none => .error .ioError

/-- Keyword arguments of `regrid` (regrid.py:124-135).  `none` stands for a missing argument; for
`matrices` also for an empty dictionary. -/
structure RegridArgs (F : Type) where
  strict : Bool
  mitgridfile : Option String
  xgFile : Option String
  ygFile : Option String
  matrices : Option (MatDict F)
  ni : Option Nat
  nj : Option Nat
  lon1 : F
  lat1 : F
  lon2 : F
  lat2 : F
  lonSub : Int
  latSub : Int

/-- Python truth value of an optional string / int. -/
def strTruthy : Option String → Option String
  | none => none
  | some s => if s = "" then none else some s
def natTruthy : Option Nat → Option Nat
  | none => none
  | some n => if n = 0 then none else some n

/-- `str.rfind` of one character: last position, `-1` if none. -/
def rfind (c : Char) (p : List Char) : Int :=
  match ((List.range p.length).filter fun k => p[k]? == some c).getLast? with
  | some k => k
  | none => -1

/-- `os.path.splitext(p)[1]` on POSIX (standard library genericpath.py `_splitext`): the suffix from the last dot, if
that dot is after the last slash and the part in between has a character other than a dot. -/
def splitextExt (p : List Char) : List Char :=
  let sep := rfind '/' p
  let dot := rfind '.' p
  if sep < dot ∧ ((List.range p.length).any fun k =>
      decide (sep + 1 ≤ (k : Int)) && decide ((k : Int) < dot) && (p[k]? != some '.')) then
    p.drop dot.toNat
  else []

/-- `os.path.splitext(name)[1] == '.csv'` (regrid.py:148-149). -/
def isCsv (name : String) : Bool := splitextExt name.toList == ".csv".toList

/-- Source selection (regrid.py:138-168). -/
def readSource [F64 F] (fs : Files F) (a : RegridArgs F) : Py (MatDict F) :=
  match strTruthy a.mitgridfile with
  | some f =>
    match natTruthy a.ni, natTruthy a.nj with
    | some ni, some nj => do
      let b ← fs.open f
      let g ← readMitgrid b ni nj a.strict
      let x ← g.arr .XG
      let y ← g.arr .YG
      return ⟨.ofF x, .ofF y, g⟩
    | _, _ => .error .valueError
  | none =>
    match strTruthy a.xgFile, strTruthy a.ygFile with
    | some xf, some yf =>
      match natTruthy a.ni, natTruthy a.nj with
      | some ni, some nj =>
        if isCsv xf && isCsv yf then do
          let x ← fs.csv xf
          let y ← fs.csv yf
          return ⟨.ofC x, .ofC y, Grid.allNone⟩
        else do
          let xr ← fs.open xf
          let x ← reshapeF (fromfile xr : List F) (ni + 1) (nj + 1)
          let yr ← fs.open yf
          let y ← reshapeF (fromfile yr : List F) (ni + 1) (nj + 1)
          return ⟨.ofF x, .ofF y, Grid.allNone⟩
      | _, _ => .error .valueError
    | _, _ =>
      match a.matrices with
      | some d =>
        match d.rest .XC with
        | .absent => .error .keyError
        | .none_ => .error .attributeError
        | .arr _ => .ok d
      | none => .error .valueError

/-- Is the dictionary that `regrid` works on the caller's own object? (regrid.py:163-164) -/
def usesCallersDict (a : RegridArgs F) : Bool :=
  (strTruthy a.mitgridfile).isNone && ((strTruthy a.xgFile).isNone || (strTruthy a.ygFile).isNone)

/-- `regrid(...)` (regrid.py:66-319): the caller's `mitgrid_matrices` afterwards, and the outcome. -/
def regrid [F64 F] (geod : Geod F) (fs : Files F) (fuel : Nat) (a : RegridArgs F) :
    Option (Option (MatDict F) × Py (Grid F × Int × Int)) :=
  match readSource fs a with
  | .error e => some (a.matrices, .error e)
  | .ok d =>
    match regridXY geod a.lon1 a.lat1 a.lon2 a.lat2 a.lonSub a.latSub fuel (d.xg, d.yg) with
    | none => none
    | some (s, r) =>
      some (if usesCallersDict a then some { d with xg := s.1, yg := s.2 } else a.matrices, r)

/-- `sgregrid` (`main`, regrid.py:322-345), output file with contents `old`: its contents afterwards.  The command line has no
`mitgrid_matrices`; all input is read before the output file is opened, so it may be one of the input files. -/
def regridMain [F64 F] (geod : Geod F) (fs : Files F) (fuel : Nat) (a : RegridArgs F) (old : List Byte) :
    Option (List Byte × Py Unit) :=
  match regrid geod fs fuel { a with matrices := none } with
  | none => none
  | some (_, .error e) => some (old, .error e)
  | some (_, .ok (g, ni, nj)) => some (writeMitgrid old g ni.toNat nj.toNat)

end SG
