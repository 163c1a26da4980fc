import Verif.Model.RunGlob
/-! # `getobcs` with the name of its results directory

`Model/GetObcs.lean` takes the contents of run directories as given by name; here they are found with `glob` among all files.

Simplifications as in `Model/MdsGlob.lean` and `Model/RunFiles.lean`; the patterns `dir/response.*.data` (getobcs.py:341, 395) are split into the
pattern `dir/*` here and `isResult` in `Model/GetObcs.lean`. -/

namespace SG
variable {F : Type} [PyFloat F] [F64 F] [F32 F]

/-- `os.path.basename` -/
def basePart (n : Text) : Text := (n.reverse.takeWhile (· ≠ '/')).reverse

/-- The directory `rundir` as `getobcs` sees it (getobcs.py:339-344, 395, 406-407, 415; mds2mitgrid.py:36). -/
def MdsDir.runDirG (pf : Text → Py F) (d : MdsDir) (rundir : Text) : RunDir F where
  names := (d.globbed (pathJoin rundir ['*'])).map basePart
  grid f := match rdmdsG pf d (rundir ++ '/' :: f.text) { fill := Arith.zero } with
    | .error _ => none
    | .ok a => match a.shape with
      | [r, c] => some ⟨r, c, fun i j => a.get [i, j]⟩
      | _ => none
  read r t := (rdmdsG pf d (pathJoin rundir r) { itrs := .one t, fill := Arith.zero }).bind volOf

end SG
