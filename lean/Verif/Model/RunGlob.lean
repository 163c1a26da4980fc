import Verif.Model.MdsGlob
import Verif.Model.RunFiles
/-! # `mds2mitgrid` with the name of its directory

`Model/RunFiles.lean` has the files of the directory; here the directory is one of several and its name is part of the pattern that `rdmds` gives to `glob`.
Simplifications as in these two. -/

namespace SG
variable {F : Type} [PyFloat F] [F64 F] [F32 F]

/-- The loop body (mds2mitgrid.py:28-47); `rdmds(rundir+os.sep+name)` (36). -/
def mdsFieldG (pf : Text → Py F) (d : MdsDir) (rundir : Text) (s : Grid F × Nat × Nat) (x : Field × Nat × Nat) : Py (Grid F × Nat × Nat) :=
  match rdmdsG pf d (rundir ++ '/' :: x.1.text) { fill := Arith.zero } with
  | .error _ => .ok s
  | .ok a =>
    match a.shape with
    | [r, c] => .ok (mdsField (fun _ => some ⟨r, c, fun i j => a.get [i, j]⟩) s x)
    | [] => .error .indexError
    | [_] => .error .indexError
    | _ => .error .valueError

/-- `mds2mitgrid(rundir)` (mds2mitgrid.py:25-51). -/
def mds2mitgridG (pf : Text → Py F) (d : MdsDir) (rundir : Text) : Py (Grid F × Nat × Nat) :=
  Mgf.zipped.foldlM (mdsFieldG pf d rundir) (Grid.allNone, 0, 0)

end SG
