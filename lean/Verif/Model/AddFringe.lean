import Verif.Model.MatchEdges
import Verif.Model.GridIO
/-! # `addfringe.py` -/

namespace SG
variable {F : Type} [PyFloat F]

/-- `m[i,1:-1] = v` or `m[1:-1,j] = v` (addfringe.py:136-137); numpy raises `ValueError` when the lengths differ
(a length-1 vector would be broadcast: the lengths are equal in that case too, see the proofs). -/
def Mat.setInner {α : Type} (m : Mat α) (s : Slice) (v : Vec α) : Py (Mat α) :=
  match s with
  | .row i => match pyIdx m.rows i with
    | some i => if v.len = m.cols - 2 then
        .ok { m with get := fun i' j' => if i' = i ∧ 1 ≤ j' ∧ j' + 1 < m.cols then v.get (j' - 1) else m.get i' j' }
      else .error .valueError
    | none => .error .indexError
  | .col j => match pyIdx m.cols j with
    | some j => if v.len = m.rows - 2 then
        .ok { m with get := fun i' j' => if j' = j ∧ 1 ≤ i' ∧ i' + 1 < m.rows then v.get (i' - 1) else m.get i' j' }
      else .error .valueError
    | none => .error .indexError

/-- The merge loop for one name (addfringe.py:155-164): `nditer` needs arrays of the same shape (or broadcastable
ones, which do not occur) with at least one element. -/
def mergeField (old new : Mat F) : Py (Mat F) :=
  if old.rows = new.rows ∧ old.cols = new.cols ∧ 0 < new.rows ∧ 0 < new.cols then
    .ok { new with get := fun i j => if PyFloat.isZero (old.get i j) then new.get i j else old.get i j }
  else .error .valueError

/-- The recomputation of tile A (addfringe.py:112-149): copy `XG`, `YG` into a fresh compute grid, put the matched
edge into its ring, fill, and compute all fields. -/
def refringe (geod : Geod F) (aXG aYG : Mat F) (m : Matched F) : Py (Grid F) := do
  let iub := 1 + 2 * (aXG.rows - 1)
  let jub := 1 + 2 * (aXG.cols - 1)
  let z := Mat.full (iub + 1 + 1) (jub + 1 + 1) Arith.zero
  let s ← forIJ (List.range aXG.rows) (List.range aXG.cols)
    (fun (s : Mat F × Mat F) i j => do
      let x ← aXG.at' i j
      let y ← aYG.at' i j
      let xg ← s.1.setAt (1 + 2 * i) (1 + 2 * j) x
      let yg ← s.2.setAt (1 + 2 * i) (1 + 2 * j) y
      return (xg, yg)) (z, z)
  let xg ← s.1.setInner m.join m.edgeXg
  let yg ← s.2.setInner m.join m.edgeYg
  let s ← fill geod xg yg 1 iub 1 jub 1 1
  tomitgrid geod s.1 s.2 0 1 iub (iub + 1) 0 1 jub (jub + 1)

/-- `for name in mgf.names: ...` (addfringe.py:155-164) -/
def mergeAll (a new : Grid F) : Py (Grid F) :=
  Mgf.names.foldlM (fun g f => do
    let o ← a.arr f
    let n ← g.arr f
    let r ← mergeField o n
    return g.put f r) new

/-- `addfringe(...)` (addfringe.py:46-166) on two tiles read from files with contents `fa`, `fb`. -/
def addfringe [F64 F] (geod : Geod F) (strict : Bool) (fa : List Byte) (nia nja : Nat) (fb : List Byte)
    (nib njb : Nat) : Py (Edge × Edge × Grid F) := do
  let a ← (readMitgrid fa nia nja strict : Py (Grid F))                    -- 91-92
  let b ← (readMitgrid fb nib njb strict : Py (Grid F))
  let aXG ← a.arr .XG
  let aYG ← a.arr .YG
  let bXG ← b.arr .XG
  let bYG ← b.arr .YG
  let m ← matchedges geod aXG aYG bXG bYG                                  -- 96-102
  let new ← refringe geod aXG aYG m                                        -- 112-149
  let g ← mergeAll a new                                                   -- 155-164
  return (m.aEdge, m.bEdge, g)

/-- `sgaddfringe` (`main`, addfringe.py:169-197), output file with contents `old`: its contents afterwards. -/
def addfringeMain [F64 F] (geod : Geod F) (strict : Bool) (fa : List Byte) (nia nja : Nat) (fb : List Byte)
    (nib njb : Nat) (old : List Byte) : List Byte × Py Unit :=
  match (addfringe geod strict fa nia nja fb nib njb : Py (Edge × Edge × Grid F)) with
  | .error e => (old, .error e)
  | .ok (_, _, g) => writeMitgrid old g nia nja

end SG
