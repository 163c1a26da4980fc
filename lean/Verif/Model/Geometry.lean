import Verif.Model.Fields
/-! # `util.py`: `lonlat2cart`, `squad_uarea`, `pquad_uarea` -/

namespace SG
variable {F : Type} [Arith F]

/-- A length-3 row of the `m x n x 3` cartesian array. -/
structure V3 (F : Type) where
  x : F
  y : F
  z : F

namespace V3
/-- `a - b` -/
def sub (a b : V3 F) : V3 F := ⟨a.x -ₚ b.x, a.y -ₚ b.y, a.z -ₚ b.z⟩
/-- `a + b` -/
def add (a b : V3 F) : V3 F := ⟨a.x +ₚ b.x, a.y +ₚ b.y, a.z +ₚ b.z⟩
/-- `np.dot(a,b)` -/
def dot (a b : V3 F) : F := a.x *ₚ b.x +ₚ a.y *ₚ b.y +ₚ a.z *ₚ b.z
/-- `np.cross(a,b)` -/
def cross (a b : V3 F) : V3 F :=
  ⟨a.y *ₚ b.z -ₚ a.z *ₚ b.y, a.z *ₚ b.x -ₚ a.x *ₚ b.z, a.x *ₚ b.y -ₚ a.y *ₚ b.x⟩
/-- `np.linalg.norm(a)` -/
def norm (a : V3 F) : F := Arith.sqrt (a.dot a)
end V3

/-- Value of `lonlat2cart` at one lon/lat pair (util.py:34-36). -/
def lonlat2cart1 (lon lat : F) : V3 F :=
  ⟨Arith.cos (Arith.radians lon) *ₚ Arith.cos (Arith.radians lat),
   Arith.sin (Arith.radians lon) *ₚ Arith.cos (Arith.radians lat),
   Arith.sin (Arith.radians lat)⟩

/-- `lonlat2cart(lons,lats,rad)` (util.py:28-38).  The argument `rad` is accepted and ignored, as in the
code.  Arrays are 2-d by type. -/
def lonlat2cart (lons lats : Mat F) (_rad : F) : Py (Mat (V3 F)) :=
  if lons.rows ≠ lats.rows ∨ lons.cols ≠ lats.cols then .error .valueError
  else .ok ⟨lons.rows, lons.cols, fun i j => lonlat2cart1 (lons.get i j) (lats.get i j)⟩

/-- Sum of the interior angles of one spherical triangle (util.py:121-126 / 129-134). -/
def triAngles (a b c : V3 F) : F × F × F :=
  let ca := V3.dot b c
  let cb := V3.dot a c
  let cc := V3.dot a b
  let sa := Arith.sin (Arith.arccos ca)
  let sb := Arith.sin (Arith.arccos cb)
  let sc := Arith.sin (Arith.arccos cc)
  (Arith.arccos ((ca -ₚ cb *ₚ cc) /ₚ (sb *ₚ sc)),
   Arith.arccos ((cb -ₚ ca *ₚ cc) /ₚ (sa *ₚ sc)),
   Arith.arccos ((cc -ₚ ca *ₚ cb) /ₚ (sa *ₚ sb)))

/-- Loop body of `squad_uarea` (util.py:114-137). -/
def squadCell (ptA ptB ptC ptD : V3 F) : F :=
  let t1 := triAngles ptA ptB ptC
  let t2 := triAngles ptA ptC ptD
  t1.1 +ₚ t1.2.1 +ₚ t1.2.2 +ₚ t2.1 +ₚ t2.2.1 +ₚ t2.2.2 -ₚ Arith.two *ₚ Arith.pi

/-- Loop body of `pquad_uarea` (util.py:167-178). -/
def pquadCell (ptA ptB ptC ptD : V3 F) : F :=
  let ab := ptB.sub ptA
  let ac := ptC.sub ptA
  let ad := ptD.sub ptA
  Arith.half *ₚ V3.norm ((ab.cross ac).add (ac.cross ad))

/-- The double loop shared by both area functions (util.py:109-139, 162-180): `np.arange(size-1)` over
both axes, four corner reads, one assignment. -/
def quadLoop (cell : V3 F → V3 F → V3 F → V3 F → F) (cart : Mat (V3 F)) : Py (Mat F) :=
  assignLoop 0 (cart.rows - 1) 0 (cart.cols - 1) (fun i j => do
    let ptA ← cart.at' i j
    let ptB ← cart.at' (i + 1) j
    let ptC ← cart.at' (i + 1) (j + 1)
    let ptD ← cart.at' i (j + 1)
    return some (cell ptA ptB ptC ptD))
    (Mat.full (cart.rows - 1) (cart.cols - 1) Arith.zero)

/-- `squad_uarea(cart)` (util.py:83-139).  `np.zeros` with a negative size (no rows or columns) raises. -/
def squadUarea (cart : Mat (V3 F)) : Py (Mat F) :=
  if cart.rows = 0 ∨ cart.cols = 0 then .error .valueError else quadLoop squadCell cart

/-- `pquad_uarea(cart)` (util.py:142-180). -/
def pquadUarea (cart : Mat (V3 F)) : Py (Mat F) :=
  if cart.rows = 0 ∨ cart.cols = 0 then .error .valueError else quadLoop pquadCell cart

end SG
