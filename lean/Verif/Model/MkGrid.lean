import Verif.Model.ComputeGrid
import Verif.Model.GridIO
/-! # `mkgrid.py`

Corner coordinates are floats, subscales arbitrary Python ints (missing keyword arguments, i.e. `None`,
are not modelled).  The geoid `pyproj.Geod(ellps='sphere')` is a parameter. -/

namespace SG
variable {F : Type} [PyFloat F]

/-- `np.zeros((r,c))`: negative dimensions raise `ValueError`. -/
def zerosI (r c : Int) : Py (Mat F) :=
  if r < 0 ∨ c < 0 then .error .valueError else .ok (Mat.full r.toNat c.toNat Arith.zero)

/-- `mkgrid(...)` (mkgrid.py:45-163).  When `fill` is reached both subscales are non-negative
(otherwise an allocation or a corner assignment has raised), so `toNat` loses nothing. -/
def mkgrid (geod : Geod F) (lon1 lat1 lon2 lat2 : F) (lonSub latSub : Int) :
    Py (Grid F × Int × Int) := do
  let iLB : Int := 0                                                   -- 120-128
  let ilb : Int := 1
  let iub := ilb + 2 * lonSub
  let iUB := iub + 1
  let jLB : Int := 0
  let jlb : Int := 1
  let jub := jlb + 2 * latSub
  let jUB := jub + 1
  let xg ← zerosI (iUB + 1) (jUB + 1)                                  -- 131-134
  let yg ← zerosI (iUB + 1) (jUB + 1)
  let minLon := lon1                                                   -- 143-144
  let maxLon := lon2
  let minLat := lat2
  let maxLat := lat1
  let xg ← xg.setAtI ilb jlb minLon                                    -- 145
  let xg ← xg.setAtI ilb jub minLon
  let xg ← xg.setAtI iub jlb maxLon                                    -- 146
  let xg ← xg.setAtI iub jub maxLon
  let yg ← yg.setAtI ilb jlb minLat                                    -- 147
  let yg ← yg.setAtI iub jlb minLat
  let yg ← yg.setAtI ilb jub maxLat                                    -- 148
  let yg ← yg.setAtI iub jub maxLat
  let s ← fill geod xg yg ilb.toNat iub.toNat jlb.toNat jub.toNat lonSub.toNat latSub.toNat  -- 152-154
  let outgrid ← tomitgrid geod s.1 s.2 iLB.toNat ilb.toNat iub.toNat iUB.toNat
    jLB.toNat jlb.toNat jub.toNat jUB.toNat                            -- 160-161
  return (outgrid, lonSub, latSub)                                     -- 163

/-- `sgmkgrid` (`main`, mkgrid.py:166-184) with `--outfile` naming a file with contents `old`: contents of the
file afterwards, and the outcome.  Argument parsing and printing are not modelled. -/
def mkgridMain [F64 F] (geod : Geod F) (lon1 lat1 lon2 lat2 : F) (lonSub latSub : Int)
    (old : List Byte) : List Byte × Py Unit :=
  match mkgrid geod lon1 lat1 lon2 lat2 lonSub latSub with
  | .error e => (old, .error e)
  | .ok (g, ni, nj) => writeMitgrid old g ni.toNat nj.toNat

end SG
