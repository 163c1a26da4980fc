import Verif.Model.Geometry
/-! # `computegrid.py`

Bounds are natural numbers (`0 ≤ ilb ≤ iub ...`).  `verbose` printing is not modelled. -/

namespace SG
variable {F : Type} [PyFloat F]

/-- `m[m.nonzero()]` as a list (C order). -/
def nonzeros (m : Mat F) : List F := m.toList.filter fun x => !PyFloat.isZero x

/-- `areas(...)` (computegrid.py:8-50). `np.power(geod.a,2)` is `a*a`. -/
def areas (geod : Geod F) (xg yg edgesX edgesY : Mat F) : Py (Mat F) := do
  let xMean := PyFloat.mean (nonzeros edgesX)
  let yMean := PyFloat.mean (nonzeros edgesY)
  let cart ← lonlat2cart xg yg (Arith.mul Arith.half Arith.two)  -- default rad=1. (unused)
  let u ← if PyFloat.lt xMean PyFloat.planar && PyFloat.lt yMean PyFloat.planar then
      pquadUarea cart
    else squadUarea cart
  return { u with get := fun i j => u.get i j *ₚ (geod.a *ₚ geod.a) }

/-- `edges(...)` (computegrid.py:81-114). -/
def edges (geod : Geod F) (xg yg : Mat F) (ilb iub jlb jub : Nat) : Py (Mat F × Mat F) := do
  if xg.rows = 0 ∨ xg.cols = 0 then throw .valueError     -- np.zeros with a negative size
  let ex0 := Mat.full (xg.rows - 1) xg.cols Arith.zero
  let ey0 := Mat.full xg.rows (xg.cols - 1) Arith.zero
  let ex ← assignLoop ilb iub jlb (jub + 1) (fun i j => do
    let lon1 ← xg.at' i j
    let lat1 ← yg.at' i j
    let lon2 ← xg.at' (i + 1) j
    let lat2 ← yg.at' (i + 1) j
    return some (geod.inv lon1 lat1 lon2 lat2)) ex0
  let ey ← assignLoop ilb (iub + 1) jlb jub (fun i j => do
    let lon1 ← xg.at' i j
    let lat1 ← yg.at' i j
    let lon2 ← xg.at' i (j + 1)
    let lat2 ← yg.at' i (j + 1)
    return some (geod.inv lon1 lat1 lon2 lat2)) ey0
  return (ex, ey)

/-- Longitude adjustment of one `npts` result (computegrid.py:196-200, 253-257). -/
def adjustLon (lon0to360 : Bool) (lon : F) : F :=
  if lon0to360 then (if PyFloat.lt lon Arith.zero then lon +ₚ PyFloat.c360 else lon) else lon

/-- One x-edge subdivision (computegrid.py:184-210): reads the end points `(ia,j)` (the nditer element)
and `(ib,j)`, writes the slice `ia+1:ib` of column `j` with the `2*lon_subscale-1` `npts` points.
The slice has exactly that many elements because `ib = ia + 2*lon_subscale` is in range. -/
def fillX (geod : Geod F) (lon0to360 : Bool) (lonSub : Nat) (s : Mat F × Mat F) (ia ib j : Nat) :
    Py (Mat F × Mat F) := do
  let (xg, yg) := s
  let lon1 ← xg.at' ia j
  let lat1 ← yg.at' ia j
  let lon2 ← xg.at' ib j
  let lat2 ← yg.at' ib j
  let pt := fun k => geod.npt lon1 lat1 lon2 lat2 (lonSub * 2 - 1) k
  return (
    { xg with get := fun i' j' => if j' = j ∧ ia + 1 ≤ i' ∧ i' < ib
        then adjustLon lon0to360 (pt (i' - (ia + 1))).1 else xg.get i' j' },
    { yg with get := fun i' j' => if j' = j ∧ ia + 1 ≤ i' ∧ i' < ib
        then (pt (i' - (ia + 1))).2 else yg.get i' j' })

/-- One y-edge subdivision (computegrid.py:241-267). -/
def fillY (geod : Geod F) (lon0to360 : Bool) (latSub : Nat) (s : Mat F × Mat F) (i ja jb : Nat) :
    Py (Mat F × Mat F) := do
  let (xg, yg) := s
  let lon1 ← xg.at' i ja
  let lat1 ← yg.at' i ja
  let lon2 ← xg.at' i jb
  let lat2 ← yg.at' i jb
  let pt := fun k => geod.npt lon1 lat1 lon2 lat2 (latSub * 2 - 1) k
  return (
    { xg with get := fun i' j' => if i' = i ∧ ja + 1 ≤ j' ∧ j' < jb
        then adjustLon lon0to360 (pt (j' - (ja + 1))).1 else xg.get i' j' },
    { yg with get := fun i' j' => if i' = i ∧ ja + 1 ≤ j' ∧ j' < jb
        then (pt (j' - (ja + 1))).2 else yg.get i' j' })

/-- `fill(...)` (computegrid.py:117-277) for non-negative subscales.  The returned arrays are new; the
inputs are not modified.  A zero stride raises `ValueError`, as does `np.nditer` on an empty slice.
The loops are taken in index order; the visited elements are never written by the loop that reads
them, so the order (nditer: memory order) does not matter. -/
def fill (geod : Geod F) (xg yg : Mat F) (ilb iub jlb jub lonSub latSub : Nat) :
    Py (Mat F × Mat F) := do
  let lon0to360 := !(xg.toList.any fun x => PyFloat.lt x Arith.zero)
  if lonSub = 0 ∨ latSub = 0 then throw .valueError
  -- Step 1: x-edges
  let ni1 := sliceLen ilb (min iub xg.rows) (2 * lonSub)
  let nj1 := sliceLen jlb (min (jub + 1) xg.cols) (2 * latSub)
  if ni1 = 0 ∨ nj1 = 0 then throw .valueError
  let s1 ← forIJ (List.range ni1) (List.range nj1)
    (fun s i j => fillX geod lon0to360 lonSub s
      (ilb + i * 2 * lonSub) (ilb + (i + 1) * 2 * lonSub) (jlb + j * 2 * latSub)) (xg, yg)
  -- Step 2: y-direction, for every row
  let ni2 := sliceLen ilb (min (iub + 1) xg.rows) 1
  let nj2 := sliceLen jlb (min jub xg.cols) (2 * latSub)
  if ni2 = 0 ∨ nj2 = 0 then throw .valueError
  forIJ (List.range ni2) (List.range nj2)
    (fun s i j => fillY geod lon0to360 latSub s
      (ilb + i) (jlb + j * 2 * latSub) (jlb + (j + 1) * 2 * latSub)) s1

/-- `if not any(np.PZERO==np.array((e1,e2))): ... = e1 + e2` -/
def sum2 (e1 e2 : Py F) : Py (Option F) := do
  let a ← e1
  let b ← e2
  return if PyFloat.isZero a || PyFloat.isZero b then none else some (a +ₚ b)

/-- `if not any(np.PZERO==np.array((e1,e2,e3,e4))): ... = e1 + e2 + e3 + e4` -/
def sum4 (e1 e2 e3 e4 : Py F) : Py (Option F) := do
  let a ← e1
  let b ← e2
  let c ← e3
  let d ← e4
  return if PyFloat.isZero a || PyFloat.isZero b || PyFloat.isZero c || PyFloat.isZero d then none
    else some (a +ₚ b +ₚ c +ₚ d)

/-- `outgrid[name] = np.zeros((r,c)); for i in range(0,ni): for j in range(0,nj): ...` -/
def sumLoop (r c ni nj : Nat) (e : Nat → Nat → Py (Option F)) : Py (Mat F) :=
  assignLoop 0 ni 0 nj e (Mat.full r c Arith.zero)

/-- `tomitgrid(...)` (computegrid.py:280-598). -/
def tomitgrid (geod : Geod F) (xg yg : Mat F) (iLB ilb iub iUB jLB jlb jub jUB : Nat) :
    Py (Grid F) := do
  let nx := (iub - ilb) / 2                                                    -- line 316
  let ny := (jub - jlb) / 2                                                    -- line 317
  let (ex, ey) ← edges geod xg yg ilb iub jlb jub                              -- 325-326
  let a ← areas geod (xg.strided ilb (iub + 1) 1 jlb (jub + 1) 1)              -- 330-334
    (yg.strided ilb (iub + 1) 1 jlb (jub + 1) 1) ex ey
  let ar ← (Mat.full (iUB - iLB) (jUB - jLB) Arith.zero).setBlock ilb iub jlb jub a   -- 329-334
  let xc := xg.strided (ilb + 1) (iub - 1 + 1) 2 (jlb + 1) (jub - 1 + 1) 2      -- 343-351
  let yc := yg.strided (ilb + 1) (iub - 1 + 1) 2 (jlb + 1) (jub - 1 + 1) 2      -- 352-354
  let xgo := xg.strided ilb (iub + 1) 2 jlb (jub + 1) 2                         -- 364-372
  let ygo := yg.strided ilb (iub + 1) 2 jlb (jub + 1) 2                         -- 373-375
  -- DXG 389-397
  let dxg ← sumLoop nx (ny + 1) nx (ny + 1) (fun i j => sum2
    (ex.at' (ilb + 2 * i) (jlb + 2 * j)) (ex.at' (ilb + 2 * i + 1) (jlb + 2 * j)))
  -- DYG 404-412
  let dyg ← sumLoop (nx + 1) ny (nx + 1) ny (fun i j => sum2
    (ey.at' (ilb + 2 * i) (jlb + 2 * j)) (ey.at' (ilb + 2 * i) (jlb + 2 * j + 1)))
  -- RAC 419-431
  let rac ← sumLoop nx ny nx ny (fun i j => sum4
    (ar.at' (ilb + 2 * i) (jlb + 2 * j)) (ar.at' (ilb + 2 * i + 1) (jlb + 2 * j))
    (ar.at' (ilb + 2 * i + 1) (jlb + 2 * j + 1)) (ar.at' (ilb + 2 * i) (jlb + 2 * j + 1)))
  -- DXC 443-451
  let dxc ← sumLoop (nx + 1) ny (nx + 1) ny (fun i j => sum2
    (ex.at' (2 * i) (jlb + 2 * j + 1)) (ex.at' (2 * i + 1) (jlb + 2 * j + 1)))
  -- DYC 458-466
  let dyc ← sumLoop nx (ny + 1) nx (ny + 1) (fun i j => sum2
    (ey.at' (ilb + 2 * i + 1) (2 * j)) (ey.at' (ilb + 2 * i + 1) (2 * j + 1)))
  -- RAZ 473-485
  let raz ← sumLoop (nx + 1) (ny + 1) (nx + 1) (ny + 1) (fun i j => sum4
    (ar.at' (2 * i) (2 * j)) (ar.at' (2 * i + 1) (2 * j))
    (ar.at' (2 * i + 1) (2 * j + 1)) (ar.at' (2 * i) (2 * j + 1)))
  -- DXV 497-505
  let dxv ← sumLoop (nx + 1) (ny + 1) (nx + 1) (ny + 1) (fun i j => sum2
    (ex.at' (2 * i) (jlb + 2 * j)) (ex.at' (2 * i + 1) (jlb + 2 * j)))
  -- DYF 512-520
  let dyf ← sumLoop nx ny nx ny (fun i j => sum2
    (ey.at' (ilb + 2 * i + 1) (jlb + 2 * j)) (ey.at' (ilb + 2 * i + 1) (jlb + 2 * j + 1)))
  -- RAW 527-539
  let raw ← sumLoop (nx + 1) ny (nx + 1) ny (fun i j => sum4
    (ar.at' (2 * i) (jlb + 2 * j)) (ar.at' (2 * i + 1) (jlb + 2 * j))
    (ar.at' (2 * i + 1) (jlb + 2 * j + 1)) (ar.at' (2 * i) (jlb + 2 * j + 1)))
  -- DXF 551-559
  let dxf ← sumLoop nx ny nx ny (fun i j => sum2
    (ex.at' (ilb + 2 * i) (jlb + 2 * j + 1)) (ex.at' (ilb + 2 * i + 1) (jlb + 2 * j + 1)))
  -- DYU 566-574
  let dyu ← sumLoop (nx + 1) (ny + 1) (nx + 1) (ny + 1) (fun i j => sum2
    (ey.at' (ilb + 2 * i) (2 * j)) (ey.at' (ilb + 2 * i) (2 * j + 1)))
  -- RAS 581-593
  let ras ← sumLoop nx (ny + 1) nx (ny + 1) (fun i j => sum4
    (ar.at' (ilb + 2 * i) (2 * j)) (ar.at' (ilb + 2 * i + 1) (2 * j))
    (ar.at' (ilb + 2 * i + 1) (2 * j + 1)) (ar.at' (ilb + 2 * i) (2 * j + 1)))
  return fun f => .arr (match f with
    | .XC => xc | .YC => yc | .XG => xgo | .YG => ygo
    | .DXG => dxg | .DYG => dyg | .RAC => rac | .DXC => dxc | .DYC => dyc | .RAZ => raz
    | .DXV => dxv | .DYF => dyf | .RAW => raw | .DXF => dxf | .DYU => dyu | .RAS => ras)

end SG
