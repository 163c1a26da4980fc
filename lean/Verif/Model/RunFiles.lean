import Verif.Model.MdsData
import Verif.Model.GetObcs
/-! # Run directories as files

`Model/GetObcs.lean` and `Model/Mds2Mitgrid.lean` take what `rdmds` returns as given; here it is computed from the files of a directory by
`Model/MdsData.lean`.  Not modelled: results of rank four and more (several records), which `getobcs` hands to xESMF, here `ValueError`; grid files of rank three whose
array numpy can broadcast to the 2-d target (mds2mitgrid.py:45), here `ValueError`; in `getobcs` without a parent grid (which raises anyway, C51)
grid files of a rank other than two are treated as missing. -/

namespace SG
variable {F : Type} [PyFloat F] [F64 F] [F32 F]

/-- The names of the fields as text (mitgridfilefields.py:27-28). -/
def Field.text : Field → Text
  | .XC => "XC".toList | .YC => "YC".toList | .DXF => "DXF".toList | .DYF => "DYF".toList | .RAC => "RAC".toList
  | .XG => "XG".toList | .YG => "YG".toList | .DXV => "DXV".toList | .DYU => "DYU".toList | .RAZ => "RAZ".toList
  | .DXC => "DXC".toList | .DYC => "DYC".toList | .RAW => "RAW".toList | .RAS => "RAS".toList | .DXG => "DXG".toList
  | .DYG => "DYG".toList

/-- The loop body of `mds2mitgrid` (mds2mitgrid.py:28-47) with `rdmds`: a bare `except` skips fields that cannot be read; `tmp.shape[1]` of a
vector raises `IndexError`, the assignment of an array of rank three or more (45) raises `ValueError`. -/
def mdsFieldDir (pf : Text → Py F) (d : MdsDir) (s : Grid F × Nat × Nat) (x : Field × Nat × Nat) : Py (Grid F × Nat × Nat) :=
  match rdmds pf d x.1.text { fill := Arith.zero } with
  | .error _ => .ok s
  | .ok a =>
    match a.shape with
    | [r, c] => .ok (mdsField (fun _ => some ⟨r, c, fun i j => a.get [i, j]⟩) s x)
    | [] => .error .indexError
    | [_] => .error .indexError
    | _ => .error .valueError

/-- `mds2mitgrid(rundir)` (mds2mitgrid.py:25-51). -/
def mds2mitgridDir (pf : Text → Py F) (d : MdsDir) : Py (Grid F × Nat × Nat) :=
  Mgf.zipped.foldlM (mdsFieldDir pf d) (Grid.allNone, 0, 0)

/-- `rdmds(...).T` as used by `getobcs` (getobcs.py:405-416): a vector has no second axis. -/
def volOf (a : NdArr F) : Py (Vol F) :=
  match a.shape with
  | [ny, nx] => .ok ⟨nx, ny, none, fun i j _ => a.get [j, i]⟩
  | [nz, ny, nx] => .ok ⟨nx, ny, some nz, fun i j k => a.get [k, j, i]⟩
  | [] => .error .indexError
  | [_] => .error .indexError
  | _ => .error .valueError

/-- A directory as `getobcs` sees it. -/
def MdsDir.runDir (pf : Text → Py F) (d : MdsDir) : RunDir F where
  names := d.names
  grid f := match rdmds pf d f.text { fill := Arith.zero } with
    | .error _ => none
    | .ok a => match a.shape with
      | [r, c] => some ⟨r, c, fun i j => a.get [i, j]⟩
      | _ => none
  read r t := (rdmds pf d r { itrs := .one t, fill := Arith.zero }).bind volOf

/-- One call `wrmds(base,arr,...)`. -/
structure WrCall (F : Type) where
  base : Text
  arr : NdArr F
  args : WrArgs F

/-- A series of `wrmds` calls. -/
def MdsDir.writeAll (fe : F → Text) (d : MdsDir) (cs : List (WrCall F)) : Py MdsDir :=
  cs.foldlM (fun d c => do return d.write (← wrmds fe c.base c.arr c.args)) d

end SG
