import Verif.Model.Fields
/-! # `mds2mitgrid.py`

`mds.rdmds(rundir+os.sep+name)` is an arbitrary function here (it is modelled in `Model/Mds.lean`):
`none` when it raises anything, otherwise the array it returns.
Not modelled: `verbose` printing; `rdmds` results of a rank other than two (for those lines 44-45 raise). -/

namespace SG
variable {F : Type} [PyFloat F]

/-- `.T` of a 2-d array (mds2mitgrid.py:36). -/
def Mat.transpose (m : Mat F) : Mat F := ⟨m.cols, m.rows, fun i j => m.get j i⟩

/-- Lines 44-45: `tmp` in the leading block of a zero array. -/
def padded (tmp : Mat F) (niDel njDel : Nat) : Mat F :=
  ⟨tmp.rows + niDel, tmp.cols + njDel,
    fun i j => if i < tmp.rows ∧ j < tmp.cols then tmp.get i j else Arith.zero⟩

/-- Loop body (mds2mitgrid.py:28-47); the state is `(mitgrid, ni, nj)`. -/
def mdsField (rd : Field → Option (Mat F)) (s : Grid F × Nat × Nat) (x : Field × Nat × Nat) :
    Grid F × Nat × Nat :=
  match rd x.1 with
  | none => s                                             -- 37-40
  | some m =>
    let tmp := m.transpose                                -- 36
    (s.1.put x.1 (padded tmp x.2.1 x.2.2),                -- 44-45
      if s.2.1 = 0 ∧ s.2.2 = 0 then (tmp.rows, tmp.cols) else s.2)   -- 46-47

/-- `mds2mitgrid(rundir)` (mds2mitgrid.py:25-51). -/
def mds2mitgrid (rd : Field → Option (Mat F)) : Grid F × Nat × Nat :=
  Mgf.zipped.foldl (mdsField rd) (Grid.allNone, 0, 0)

end SG
