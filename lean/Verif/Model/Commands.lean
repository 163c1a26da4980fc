import Verif.Model.CommandLine
import Verif.Model.Stitch
import Verif.Model.RunFiles
/-! # The commands (setup.py:25-32) from their arguments to the files they leave

Files are named by text; two names never stand for the same file, directories and permissions are left out (`open` for writing fails only
for the empty name).  `csv` is what `np.loadtxt` makes of the bytes of a file.  Negative `--ni`, `--nj`, `--nia`, ... (not modelled by the
functions called) are taken as 0.  What is printed is in `Model/Messages`; here only whether printing raises. -/

namespace SG.Cli
variable {F : Type} [PyFloat F] [F64 F]

/-- Contents of files by name. -/
abbrev World := Text → Option (List Byte)

def World.put (w : World) (f : Text) (b : List Byte) : World := fun g => if g = f then some b else w g

/-- How the process ends: normally, through `sys.exit` (usage error 2, help 0), or with a traceback. -/
inductive End | done | exit (status : Nat) | raised (e : PyErr)
deriving DecidableEq, Repr

/-- `args.name` -/
def Ns.float (ns : Ns F) (n : String) : Option F := match ns n.toList with | some (.float x) => some x | _ => none
def Ns.int (ns : Ns F) (n : String) : Option Int := match ns n.toList with | some (.int z) => some z | _ => none
def Ns.text (ns : Ns F) (n : String) : Option Text := match ns n.toList with | some (.text t) => some t | _ => none
def Ns.flag (ns : Ns F) (n : String) : Bool := match ns n.toList with | some .true_ => true | _ => false
def Ns.nat (ns : Ns F) (n : String) : Nat := ((ns.int n).getD 0).toNat

/-- The call of `write_mitgridfile` at the end of each `main`, given what was computed: `open(None,'wb')` raises `TypeError`, `open('','wb')`
`FileNotFoundError`. -/
def writeOut (w : World) (f : Option Text) : Py (Grid F × Nat × Nat) → World × End
  | .error e => (w, .raised e)
  | .ok (g, ni, nj) =>
    match f with
    | none => (w, .raised .typeError)
    | some [] => (w, .raised .ioError)
    | some f =>
      let r := writeMitgrid ((w f).getD []) g ni nj
      (w.put f r.1, match r.2 with | .ok _ => .done | .error e => .raised e)

/-- Is one of the four coordinates missing? -/
def Ns.misses (ns : Ns F) : Bool := ["--lon1", "--lat1", "--lon2", "--lat2"].any fun n => (ns.float n).isNone

/-- The call of `mkgrid` (mkgrid.py:171-178).  Missing options are `None`: `'{0:9.4f}'.format(None)` raises `TypeError` (88-92, only with
`-v`), `2*None` raises `TypeError` (122, 127), a `None` stored in a float array becomes NaN (145-148). -/
def mkgridCall (geod : Geod F) (ns : Ns F) : Py (Grid F × Nat × Nat) :=
  if ns.flag "--verbose" && ns.misses then .error .typeError else
  match ns.int "--lon_subscale" with
  | none => .error .typeError
  | some i =>
    match ns.int "--lat_subscale" with
    | none => .error .typeError
    | some j =>
      (mkgrid geod ((ns.float "--lon1").getD PyFloat.nan) ((ns.float "--lat1").getD PyFloat.nan) ((ns.float "--lon2").getD PyFloat.nan)
        ((ns.float "--lat2").getD PyFloat.nan) i j).map fun r => (r.1, r.2.1.toNat, r.2.2.toNat)

/-- `sgmkgrid` (`main`, mkgrid.py:166-184). -/
def sgmkgrid (pf : Text → Option F) (pi : Text → Option Int) (geod : Geod F) (args : List Text) (w : World) : World × End :=
  match parseArgs pf pi mkgridParser args with
  | .exit n => (w, .exit n)
  | .ok ns => writeOut w (ns.text "--outfile") (mkgridCall geod ns)

/-- Files as `regrid` and `getobcs` see them. -/
def World.files (csv : List Byte → Py (Mat F)) (w : World) : Files F where
  bin f := w f.toList
  csv f := match w f.toList with | none => .error .ioError | some b => csv b

/-- The keyword arguments of `regrid` (regrid.py:327-340). -/
def regridCall (ns : Ns F) : RegridArgs F where
  strict := ns.flag "--strict"
  mitgridfile := (ns.text "--mitgridfile").map String.ofList
  xgFile := (ns.text "--xg_file").map String.ofList
  ygFile := (ns.text "--yg_file").map String.ofList
  matrices := none
  ni := some (ns.nat "--ni")
  nj := some (ns.nat "--nj")
  lon1 := (ns.float "--lon1").getD PyFloat.nan
  lat1 := (ns.float "--lat1").getD PyFloat.nan
  lon2 := (ns.float "--lon2").getD PyFloat.nan
  lat2 := (ns.float "--lat2").getD PyFloat.nan
  lonSub := (ns.int "--lon_subscale").getD 0
  latSub := (ns.int "--lat_subscale").getD 0

/-- `sgregrid` (`main`, regrid.py:322-345); `none`: still running after `fuel` loop tests.  All options read with `getD` are required. -/
def sgregrid (pf : Text → Option F) (pi : Text → Option Int) (csv : List Byte → Py (Mat F)) (geod : Geod F) (fuel : Nat) (args : List Text)
    (w : World) : Option (World × End) :=
  match parseArgs pf pi regridParser args with
  | .exit n => some (w, .exit n)
  | .ok ns =>
    (regrid geod (w.files csv) fuel (regridCall ns)).map fun r =>
      writeOut w (ns.text "--outfile") (r.2.map fun r => (r.1, r.2.1.toNat, r.2.2.toNat))

/-- Contents of the two tile files, as far as they are reached: tile A is read before tile B is opened (addfringe.py:91-92). -/
def twoTiles (w : World) (ns : Ns F) : Py (List Byte × List Byte) := do
  let a ← (match w ((ns.text "--tilea").getD []) with | none => .error .ioError | some b => .ok b)
  let _ ← (readMitgrid a (ns.nat "--nia") (ns.nat "--nja") (ns.flag "--strict") : Py (Grid F))
  let b ← (match w ((ns.text "--tileb").getD []) with | none => .error .ioError | some b => .ok b)
  return (a, b)

/-- `sgaddfringe` (`main`, addfringe.py:169-197). -/
def sgaddfringe (pf : Text → Option F) (pi : Text → Option Int) (geod : Geod F) (args : List Text) (w : World) : World × End :=
  match parseArgs pf pi twoTilesParser args with
  | .exit n => (w, .exit n)
  | .ok ns =>
    writeOut w (ns.text "--outfile") do
      let f ← twoTiles w ns
      let r ← (addfringe geod (ns.flag "--strict") f.1 (ns.nat "--nia") (ns.nat "--nja") f.2 (ns.nat "--nib") (ns.nat "--njb") :
        Py (Edge × Edge × Grid F))
      return (r.2.2, ns.nat "--nia", ns.nat "--nja")

/-- `sgstitch` (`main`, stitch.py:202-230). -/
def sgstitch (pf : Text → Option F) (pi : Text → Option Int) (geod : Geod F) (args : List Text) (w : World) : World × End :=
  match parseArgs pf pi twoTilesParser args with
  | .exit n => (w, .exit n)
  | .ok ns =>
    writeOut w (ns.text "--outfile") do
      let f ← twoTiles w ns
      stitch geod (ns.flag "--strict") f.1 (ns.nat "--nia") (ns.nat "--nja") f.2 (ns.nat "--nib") (ns.nat "--njb")

/-- `OB_Jnorth`, ... as passed by `main`: an int or `None`. -/
def obOption (ns : Ns F) : Side → ObArg
  | .N => ((ns.int "--OB_Jnorth").map .scalar).getD .missing
  | .S => ((ns.int "--OB_Jsouth").map .scalar).getD .missing
  | .E => ((ns.int "--OB_Ieast").map .scalar).getD .missing
  | .W => ((ns.int "--OB_Iwest").map .scalar).getD .missing

/-- The keyword arguments of `getobcs` (getobcs.py:491-505). -/
def getobcsCall (ns : Ns F) : ObcsArgs F where
  strict := ns.flag "--strict"
  parentFile := (ns.text "--parent_mitgridfile").map String.ofList
  niParent := some (ns.nat "--ni_parent")
  njParent := some (ns.nat "--nj_parent")
  parentMatrices := none
  regionalFile := (ns.text "--regional_mitgridfile").map String.ofList
  niRegional := some (ns.nat "--ni_regional")
  njRegional := some (ns.nat "--nj_regional")
  regionalMatrices := none
  parentResultsdir := ns.text "--parent_resultsdir"
  ob := obOption ns
  resultsdir := ns.text "--resultsdir"

/-- `sggetobcs` (`main`, getobcs.py:486-505) with grid files `fs`, run directories `runs` and the output directory's state `k`. -/
def sggetobcs {W : Type} (pf : Text → Option F) (pi : Text → Option Int) (geod : Geod F) (fs : Files F) (fuel : Nat) (xe : Xesmf F W)
    (runs : Text → RunDir F) (args : List Text) (k : Disk W) : Option (Disk W × End) :=
  match parseArgs pf pi getobcsParser args with
  | .exit n => some (k, .exit n)
  | .ok ns =>
    (getobcs geod fs fuel xe runs (getobcsCall ns) k).map fun r => (r.1, match r.2 with | .ok _ => .done | .error e => .raised e)

end SG.Cli
