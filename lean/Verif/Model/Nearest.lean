import Verif.Model.Fields
/-! # `util.nearest` and array memory order

`np.nditer` visits elements in memory order (default order `'K'`; negative strides are flipped), not in
index order.  An array therefore carries the list of its index pairs in memory order. -/

namespace SG

/-- A numpy 2-d array together with the order in which `np.nditer` visits it. -/
structure NArr (F : Type) where
  mat : Mat F
  order : List (Nat × Nat)

namespace NArr
variable {F : Type}

/-- Every in-range index pair is visited exactly once. -/
structure WF (a : NArr F) : Prop where
  mem : ∀ p : Nat × Nat, p ∈ a.order ↔ p.1 < a.mat.rows ∧ p.2 < a.mat.cols
  nodup : a.order.Nodup

/-- Row-major array (`np.zeros`, `np.loadtxt`, ...). -/
def ofC (m : Mat F) : NArr F :=
  ⟨m, (List.range m.rows).flatMap fun i => (List.range m.cols).map fun j => (i, j)⟩

/-- Column-major array (`np.reshape(..., order='F')` of a vector, gridio.py:102, regrid.py:157-159),
and trimmed views of such arrays (gridio.py:118). -/
def ofF (m : Mat F) : NArr F :=
  ⟨m, (List.range m.cols).flatMap fun j => (List.range m.rows).map fun i => (i, j)⟩

/-- `np.rot90(a)` is a view: same memory, element `(r,c)` is now at `(cols-1-c, r)`. -/
def rot90 (a : NArr F) : NArr F :=
  ⟨a.mat.rot90, a.order.map fun p => (a.mat.cols - 1 - p.2, p.1)⟩

end NArr

/-- Loop body of `nearest` (util.py:70-78); `it.multi_index` is in range, so the element reads
`lons[..]`, `lats[..]` (equal shapes) do not raise. -/
def nearestStep {F : Type} [PyFloat F] (geod : Geod F) (lon lat : F) (lons lats : Mat F)
    (s : Int × Int × F) (p : Nat × Nat) : Int × Int × F :=
  let distance := geod.inv lon lat (lons.get p.1 p.2) (lats.get p.1 p.2)
  if PyFloat.lt distance s.2.2 then (p.1, p.2, distance) else s

/-- `nearest(lon,lat,lons,lats,geod)` (util.py:65-80).  Inputs are 2-d (`ndim` check not modelled);
`np.nditer` raises `ValueError` on arrays of size zero. -/
def nearest {F : Type} [PyFloat F] (geod : Geod F) (lon lat : F) (lons lats : NArr F) :
    Py (Int × Int × F) :=
  if lons.mat.rows ≠ lats.mat.rows ∨ lons.mat.cols ≠ lats.mat.cols then .error .valueError
  else if lons.mat.rows * lons.mat.cols = 0 then .error .valueError
  else .ok (lons.order.foldl (nearestStep geod lon lat lons.mat lats.mat) (-1, -1, PyFloat.c1e10))

end SG
