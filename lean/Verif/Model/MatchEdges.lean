import Verif.Model.ComputeGrid
/-! # `matchedges.py`

`verbose` printing is not modelled. -/

namespace SG
variable {F : Type} [PyFloat F]

/-- `edges = (N,S,E,W) = list(range(4))` (util.py:5). -/
inductive Edge
  | N | S | E | W
deriving DecidableEq, Repr

/-- The integer values of the constants (util.py:5). -/
def Edge.code : Edge → Nat
  | .N => 0 | .S => 1 | .E => 2 | .W => 3

/-- A 1-d array. -/
structure Vec (α : Type) where
  len : Nat
  get : Nat → α

/-- `v[i]` for non-negative `i`. -/
def Vec.at' {α : Type} (v : Vec α) (i : Nat) : Py α :=
  if i < v.len then .ok (v.get i) else .error .indexError

/-- The slice objects `(np.s_[i],np.s_[:])` and `(np.s_[:],np.s_[j])`. -/
inductive Slice
  | row (i : Int)
  | col (j : Int)
deriving DecidableEq, Repr

/-- `m[slice]` -/
def Mat.sel {α : Type} (m : Mat α) : Slice → Py (Vec α)
  | .row i => match pyIdx m.rows i with
    | some i => .ok ⟨m.cols, fun j => m.get i j⟩
    | none => .error .indexError
  | .col j => match pyIdx m.cols j with
    | some j => .ok ⟨m.rows, fun i => m.get i j⟩
    | none => .error .indexError

/-- `corners = (SW,SE,NE,NW)` (matchedges.py:61). -/
def corners : List (Int × Int) := [(0, 0), (-1, 0), (-1, -1), (0, -1)]

/-- `geod.inv(aXG[ca], aYG[ca], bXG[cb], bYG[cb])` -/
def cornerDist (geod : Geod F) (aXG aYG bXG bYG : Mat F) (ca cb : Int × Int) : Py F := do
  let lon1 ← aXG.atI ca.1 ca.2
  let lat1 ← aYG.atI ca.1 ca.2
  let lon2 ← bXG.atI cb.1 cb.2
  let lat2 ← bYG.atI cb.1 cb.2
  return geod.inv lon1 lat1 lon2 lat2

/-- The loops filling a 2x2 matrix of minimum distances (matchedges.py:72-91), for the tile of the outer
loop; `dist c c'` is the distance from its corner `c` to corner `c'` of the other tile. -/
def minDists (dist : Int × Int → Int × Int → Py F) : Py (Mat F) :=
  corners.foldlM (fun m c => corners.foldlM (fun m c' => do
    let d ← dist c c'
    let cur ← m.atI c.1 c.2
    if PyFloat.lt d cur then m.setAtI c.1 c.2 d else pure m) m) (Mat.full 2 2 PyFloat.inf)

/-- `np.amin([np.amin(x),np.amin(y)])`: no element is NaN here. -/
def amin (l : List F) : F := l.foldl (fun acc x => if PyFloat.lt x acc then x else acc) PyFloat.inf

/-- Edge detection (matchedges.py:100-124, 126-151): `np.less_equal(dist,t)`, then the first of W, E, S, N whose two
corners are both close. -/
def detect (m : Mat F) (t : F) : Option Edge :=
  if PyFloat.le (m.get 0 0) t && PyFloat.le (m.get 0 1) t then some .W
  else if PyFloat.le (m.get 1 0) t && PyFloat.le (m.get 1 1) t then some .E
  else if PyFloat.le (m.get 0 0) t && PyFloat.le (m.get 1 0) t then some .S
  else if PyFloat.le (m.get 0 1) t && PyFloat.le (m.get 1 1) t then some .N
  else none

/-- `a_edge_slice`, `b_edge_slice` (matchedges.py:105-120, 128-146). -/
def edgeSlice : Edge → Slice
  | .W => .row 0 | .E => .row (-1) | .S => .col 0 | .N => .col (-1)

/-- `b_edge_next_slice` (matchedges.py:129-147). -/
def edgeNextSlice : Edge → Slice
  | .W => .row 1 | .E => .row (-2) | .S => .col 1 | .N => .col (-2)

/-- `compute_grid_edge_join_slice` (matchedges.py:214-225): the slice without its first and last element. -/
def joinSlice : Edge → Slice
  | .E => .row (-1) | .W => .row 0 | .N => .col (-1) | .S => .col 0

/-- The returned tuple. -/
structure Matched (F : Type) where
  aEdge : Edge
  aSlice : Slice
  bEdge : Edge
  bSlice : Slice
  edgeXg : Vec F
  edgeYg : Vec F
  join : Slice

/-- One iteration of the loops of matchedges.py:171-175, 177-181, 190-194, 196-200: `(pa i)`, `(pb i)` are the compute
grid positions of the `i`-th point of tile A's edge and of tile B's next line. -/
def edgeStep (aXG aYG bXG bYG : Mat F) (sa sb : Slice) (pa pb : Nat → Nat × Nat)
    (s : Mat F × Mat F) (i : Nat) : Py (Mat F × Mat F) := do
  let va ← aXG.sel sa
  let x ← va.at' i
  let xg ← s.1.setAt (pa i).1 (pa i).2 x
  let va ← aYG.sel sa
  let y ← va.at' i
  let yg ← s.2.setAt (pa i).1 (pa i).2 y
  let vb ← bXG.sel sb
  let x ← vb.at' i
  let xg ← xg.setAt (pb i).1 (pb i).2 x
  let vb ← bYG.sel sb
  let y ← vb.at' i
  let yg ← yg.setAt (pb i).1 (pb i).2 y
  return (xg, yg)

/-- The boundary compute grid and its middle line (matchedges.py:164-225).  The shape of tile A is at least 1x1 here
(its corners have been read). -/
def edgeLine (geod : Geod F) (aXG aYG bXG bYG : Mat F) (ae be : Edge) : Py (Vec F × Vec F) :=
  let sa := edgeSlice ae
  let sb := edgeNextSlice be
  let rowwise (pa pb : Nat → Nat × Nat) : Py (Vec F × Vec F) := do         -- E, W
    let n := aXG.cols
    let z := Mat.full 3 (2 * n - 1) Arith.zero
    let s ← (List.range n).foldlM (edgeStep aXG aYG bXG bYG sa sb pa pb) (z, z)
    let s ← fill geod s.1 s.2 0 2 0 (2 * (n - 1)) 1 1
    let x ← s.1.sel (.row 1)
    let y ← s.2.sel (.row 1)
    return (x, y)
  let colwise (pa pb : Nat → Nat × Nat) : Py (Vec F × Vec F) := do         -- N, S
    let n := aXG.rows
    let z := Mat.full (2 * n - 1) 3 Arith.zero
    let s ← (List.range n).foldlM (edgeStep aXG aYG bXG bYG sa sb pa pb) (z, z)
    let s ← fill geod s.1 s.2 0 (2 * (n - 1)) 0 2 1 1
    let x ← s.1.sel (.col 1)
    let y ← s.2.sel (.col 1)
    return (x, y)
  match ae with
  | .E => rowwise (fun i => (0, 2 * i)) (fun i => (2, 2 * i))
  | .W => rowwise (fun i => (2, 2 * i)) (fun i => (0, 2 * i))
  | .N => colwise (fun i => (2 * i, 0)) (fun i => (2 * i, 2))
  | .S => colwise (fun i => (2 * i, 2)) (fun i => (2 * i, 0))

/-- `matchedges(...)` (matchedges.py:9-232). -/
def matchedges (geod : Geod F) (aXG aYG bXG bYG : Mat F) : Py (Matched F) := do
  let a1 ← cornerDist geod aXG aYG aXG aYG (0, 0) (-1, -1)                 -- 65-69
  let a2 ← cornerDist geod aXG aYG aXG aYG (-1, 0) (0, -1)
  let b1 ← cornerDist geod bXG bYG bXG bYG (0, 0) (-1, -1)
  let b2 ← cornerDist geod bXG bYG bXG bYG (-1, 0) (0, -1)
  let nomDiag := (a1 +ₚ a2 +ₚ b1 +ₚ b2) /ₚ PyFloat.four
  let ab ← minDists (fun ca cb => cornerDist geod aXG aYG bXG bYG ca cb)   -- 72-82
  let ba ← minDists (fun cb ca => cornerDist geod aXG aYG bXG bYG ca cb)   -- 84-91
  let t := nomDiag *ₚ PyFloat.tol
  if PyFloat.lt t (amin [amin ab.toList, amin ba.toList]) then throw .valueError   -- 94-96
  match detect ab t with                                                   -- 100-124
  | none => throw .valueError
  | some ae =>
    match detect ba t with                                                 -- 126-151
    | none => throw .valueError
    | some be => do
      if ae.code + be.code ≠ Edge.N.code + Edge.S.code ∧
          ae.code + be.code ≠ Edge.E.code + Edge.W.code then throw .valueError     -- 153-154
      let (x, y) ← edgeLine geod aXG aYG bXG bYG ae be
      return ⟨ae, edgeSlice ae, be, edgeSlice be, x, y, joinSlice ae⟩

end SG
