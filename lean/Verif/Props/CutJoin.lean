import Verif.Props.Parts
import Verif.Props.AnySide
/-! # C138: cutting a grid in two with `sgregrid` and joining the parts with `sgstitch` -/

set_option linter.unusedSectionVars false
namespace SG
variable {F : Type} [PyFloat F]

/-- Two files whose corner points share a side: `addfringe` finds the side and `stitch` joins the tiles along it. -/
theorem share_side_stitch [F64 F] [FloatTotal F] [ZeroLaw F] (geod : Geod F) (strict : Bool) (fa fb : List Byte) (ma na mb nb : Nat)
    (hma : 1 ≤ ma) (hna : 1 ≤ na) (hmb : 1 ≤ mb) (hnb : 1 ≤ nb) (a b : Grid F) (ra : readMitgrid fa ma na strict = .ok a) (rb : readMitgrid fb mb nb strict = .ok b)
    (xa ya xb yb : Mat F) (hxa : a .XG = .arr xa) (hya : a .YG = .arr ya) (hxb : b .XG = .arr xb) (hyb : b .YG = .arr yb)
    (P Q : Spec.Corner → F × F) (ca : ∀ c, Spec.cornerPt xa ya c = P c) (cb : ∀ c, Spec.cornerPt xb yb c = Q c) (ae be : Edge)
    (h : Spec.ShareSide geod P Q ae be) (hcells : Spec.edgeCells ma na ae = Spec.edgeCells mb nb be) :
    ∃ a' c, addfringe geod strict fa ma na fb mb nb = .ok (ae, be, a') ∧ stitch geod strict fa ma na fb mb nb = .ok (c, Spec.joinedSize ma na mb nb ae) := by
  obtain ⟨_, e1, A1, A2⟩ := read_complete fa ma na strict a ra .XG
  rw [hxa] at e1; cases e1
  obtain ⟨_, e1, A3, A4⟩ := read_complete fa ma na strict a ra .YG
  rw [hya] at e1; cases e1
  obtain ⟨_, e1, B1, B2⟩ := read_complete fb mb nb strict b rb .XG
  rw [hxb] at e1; cases e1
  obtain ⟨_, e1, B3, B4⟩ := read_complete fb mb nb strict b rb .YG
  rw [hyb] at e1; cases e1
  simp only [Spec.nrows, Spec.ncols] at A1 A2 A3 A4 B1 B2 B3 B4
  have tol : Spec.tolerance geod xa ya xb yb = Spec.boxTolerance geod P Q := by
    unfold Spec.tolerance Spec.boxTolerance
    simp only [ca, cb]
  have no : ∀ {x : Bool}, x = false → ¬ x = true := fun h h' => by rw [h] at h'; cases h'
  have f1 : Spec.FirstEdge (Spec.NearA geod xa ya xb yb) ae := by
    refine first_of_far _ _ (fun c hc => ⟨Spec.facing ae c, ?_⟩) fun c hc ⟨c', h'⟩ => ?_
    · rw [tol, ca, cb, ← h.same c hc]; exact h.common c hc
    · rw [tol, ca, cb] at h'; exact no (h.farA c hc c') h'
  have f2 : Spec.FirstEdge (Spec.NearB geod xa ya xb yb) be := by
    refine first_of_far _ _ (fun c hc => ⟨Spec.facing be c, ?_⟩) fun c hc ⟨c', h'⟩ => ?_
    · have h1 : Spec.onEdge ae (Spec.facing be c) = true := by
        have := h.opposite
        obtain ⟨c1, c2⟩ := c
        cases ae <;> cases be <;> simp_all [Spec.Opposite, Spec.onEdge, Spec.facing]
      have h2 : Spec.facing ae (Spec.facing be c) = c := by
        have := h.opposite
        obtain ⟨c1, c2⟩ := c
        cases ae <;> cases be <;> simp_all [Spec.Opposite, Spec.facing]
      have e := h.same _ h1
      rw [h2] at e
      have k := h.common _ h1
      rw [tol, ca, cb, ← e]
      exact k
    · rw [tol, ca, cb] at h'; exact no (h.farB c hc c') h'
  obtain ⟨M, hM, hMa, hMb⟩ := C41_accepts geod xa ya xb yb ae be ⟨by omega, by omega, by omega, by omega⟩
    ⟨by omega, by omega, by omega, by omega⟩ (by rw [tol]; exact h.finite) f1 f2 h.opposite (by
      have := along_cells xa ma na A1 A2 ae
      have := along_cells xb mb nb B1 B2 be
      have ho := h.opposite
      refine ⟨?_, ?_, ?_⟩
      · cases ae <;> simp only [Spec.along] <;> omega
      · omega
      · cases be <;> simp only [Spec.across] <;> omega)
  obtain ⟨a', c, hadd, hst, -⟩ := stitch_accepts geod strict _ _ ma na mb nb hma hna a b xa ya xb yb M ra rb hxa hya hxb hyb hM
    (by rw [hMa, hMb]; exact hcells)
  rw [hMa] at hst
  rw [hMa, hMb] at hadd
  exact ⟨a', c, hadd, hst⟩

/-- The corner points of a part of a mesh. -/
def Spec.partCorner (G : Nat → Nat → F × F) (x y p q : Nat) (c : Spec.Corner) : F × F := G (if c.1 then x + p else x) (if c.2 then y + q else y)

/-- The side of B that lies on side `e` of A. -/
def Spec.oppositeSide : Edge → Edge
  | .E => .W
  | .W => .E
  | .N => .S
  | .S => .N

/-- The corners of two parts, B on side `e` of A, can be told apart: the tolerance (a millionth of the mean diagonal of the parts) is a number, the end points of the
common side are within it of themselves, and every other corner of one part is farther from all corners of the other. -/
structure Spec.PartsApart (geod : Geod F) (G : Nat → Nat → F × F) (xa ya pa qa xb yb pb qb : Nat) (e : Edge) : Prop where
  finite : PyFloat.le PyFloat.inf (Spec.boxTolerance geod (Spec.partCorner G xa ya pa qa) (Spec.partCorner G xb yb pb qb)) = false
  common : ∀ c, Spec.onEdge e c = true → PyFloat.le (Spec.cdist geod (Spec.partCorner G xa ya pa qa c) (Spec.partCorner G xa ya pa qa c))
    (Spec.boxTolerance geod (Spec.partCorner G xa ya pa qa) (Spec.partCorner G xb yb pb qb)) = true
  farA : ∀ c, Spec.onEdge e c = false → ∀ c', PyFloat.le (Spec.cdist geod (Spec.partCorner G xa ya pa qa c) (Spec.partCorner G xb yb pb qb c'))
    (Spec.boxTolerance geod (Spec.partCorner G xa ya pa qa) (Spec.partCorner G xb yb pb qb)) = false
  farB : ∀ c, Spec.onEdge e c = true → ∀ c', PyFloat.le (Spec.cdist geod (Spec.partCorner G xa ya pa qa c') (Spec.partCorner G xb yb pb qb c))
    (Spec.boxTolerance geod (Spec.partCorner G xa ya pa qa) (Spec.partCorner G xb yb pb qb)) = false

theorem PartsApart.shareSide {geod : Geod F} {G : Nat → Nat → F × F} {xa ya pa qa xb yb pb qb p q : Nat} {e : Edge}
    (h : Spec.PartsApart geod G xa ya pa qa xb yb pb qb e) (fill : Spec.FillBlock p q xa ya pa qa xb yb pb qb e) :
    Spec.ShareSide geod (Spec.partCorner G xa ya pa qa) (Spec.partCorner G xb yb pb qb) e (Spec.oppositeSide e) := by
  refine ⟨by cases e <;> trivial, h.finite, fun c hc => ?_, h.common, h.farA, fun c hc => h.farB c ?_⟩
  · obtain ⟨c1, c2⟩ := c
    unfold Spec.partCorner
    cases e <;> cases c1 <;> cases c2 <;> first
      | exact absurd hc (by decide)
      | (simp only [Spec.FillBlock] at fill
         obtain ⟨f1, f2, f3, f4, f5, f6, f7⟩ := fill
         simp only [Spec.facing, Bool.not_true, Bool.not_false, if_true, if_false, Bool.false_eq_true]
         congr 1 <;> omega)
  · obtain ⟨c1, c2⟩ := c
    cases e <;> cases c1 <;> cases c2 <;> first
      | rfl
      | exact absurd hc (by decide)

theorem refined_corner (geod : Geod F) (east : Bool) (ls lt : Nat) (hls : 0 < ls) (hlt : 0 < lt) (G : Nat → Nat → F × F) (i j : Nat) :
    Spec.refined geod east ls lt G (2 * (i * ls)) (2 * (j * lt)) = G i j := by
  have e1 : 2 * (i * ls) = 2 * ls * i := by rw [Nat.mul_assoc, Nat.mul_comm i]
  have e2 : 2 * (j * lt) = 2 * lt * j := by rw [Nat.mul_assoc, Nat.mul_comm j]
  unfold Spec.refined
  dsimp only
  rw [e1, e2, Nat.mul_mod_right, Nat.mul_mod_right, Nat.mul_div_cancel_left _ (by omega), Nat.mul_div_cancel_left _ (by omega)]
  rfl

section regrid
variable [F64 F]

/-- **C138**: a block of a grid cut in two with `sgregrid` (two runs) and joined with `sgstitch` is the block as one run of `sgregrid` gives it: all four commands succeed,
the files have the same length, pass a strict read with the same counts, and hold the same entries except for the terms on the common side that need points of both
parts, and where the single run's entry is zero. -/
theorem C138_cut_and_join [LawfulF64 F] [ZeroLaw F] [FloatTotal F] (geod : Geod F) (fs : Files F) (fuel : Nat) (hf : 4 ≤ fuel) (d : MatDict F)
    (hs : Spec.SameShape d.xg d.yg) (w a b : RegridArgs F) (hw' : readSource fs w = .ok d) (ha : readSource fs a = .ok d) (hb : readSource fs b = .ok d)
    (mw : w.matrices = none) (ma : a.matrices = none) (mb : b.matrices = none) (u1 v1 u2 v2 a1 b1 a2 b2 a3 b3 a4 b4 : Nat)
    (tw : Spec.Takes geod d w u1 v1 u2 v2) (ta : Spec.Takes geod d a a1 b1 a2 b2) (tb : Spec.Takes geod d b a3 b3 a4 b4)
    (xa ya pa qa xb yb pb qb : Nat) (partA : Spec.PartOf u1 v1 u2 v2 a1 b1 a2 b2 xa ya pa qa) (partB : Spec.PartOf u1 v1 u2 v2 a3 b3 a4 b4 xb yb pb qb)
    (ls lt : Nat) (ls0 : 0 < ls) (lt0 : 0 < lt) (els : w.lonSub = ls) (elt : w.latSub = lt) (els1 : a.lonSub = ls) (elt1 : a.latSub = lt)
    (els2 : b.lonSub = ls) (elt2 : b.latSub = lt) (p q : Nat) (hpq : Spec.blockSize u1 v1 u2 v2 = (p, q))
    (la : Spec.SameLongitudes p q (Spec.blockPoint d.xg.mat d.yg.mat u1 v1 u2 v2) xa ya pa qa)
    (lb : Spec.SameLongitudes p q (Spec.blockPoint d.xg.mat d.yg.mat u1 v1 u2 v2) xb yb pb qb)
    (e : Edge) (fill : Spec.FillBlock p q xa ya pa qa xb yb pb qb e)
    (apart : Spec.PartsApart geod (Spec.blockPoint d.xg.mat d.yg.mat u1 v1 u2 v2) xa ya pa qa xb yb pb qb e) (strict : Bool) (ow oa ob old : List Byte) :
    ∃ (fw fa fb bytes : List Byte) (g c : Grid F), regridMain geod fs fuel w ow = some (fw, .ok ()) ∧ regridMain geod fs fuel a oa = some (fa, .ok ()) ∧
      regridMain geod fs fuel b ob = some (fb, .ok ()) ∧
      stitchMain (F := F) geod strict fa (pa * ls) (qa * lt) fb (pb * ls) (qb * lt) old = (bytes, .ok ()) ∧ bytes.length = fw.length ∧
      readMitgrid fw (p * ls) (q * lt) true = .ok g ∧ readMitgrid bytes (p * ls) (q * lt) true = .ok c ∧
      ∀ f, ∃ M C, g f = .arr M ∧ c f = .arr C ∧
        ((Spec.kind f = .area → Spec.SameFormula geod ls lt p q (Spec.blockPoint d.xg.mat d.yg.mat u1 v1 u2 v2) xa ya pa qa ∧
          Spec.SameFormula geod ls lt p q (Spec.blockPoint d.xg.mat d.yg.mat u1 v1 u2 v2) xb yb pb qb) →
        ∀ i j, i < Spec.nrows f (p * ls) → j < Spec.ncols f (q * lt) → ¬ Spec.SeamTerm f (pa * ls) (qa * lt) (pb * ls) (qb * lt) i j e →
          (PyFloat.isZero (M.get i j) = false ∨ f = .XG ∨ f = .YG) → C.get i j = M.get i j) := by
  have hw : d.xg.WF := readSource_files_wf fs w mw d hw'
  -- one run
  have run : ∀ (args : RegridArgs F) (t1 t2 t3 t4 pp qq : Nat) (o : List Byte), readSource fs args = .ok d → args.matrices = none → Spec.Takes geod d args t1 t2 t3 t4 →
      args.lonSub = ls → args.latSub = lt → Spec.blockSize t1 t2 t3 t4 = (pp, qq) →
      ∃ dd gg file, regrid geod fs fuel args = some (dd, .ok (gg, ((pp * ls : Nat) : Int), ((qq * lt : Nat) : Int))) ∧
        Spec.RefinedGrid geod ls lt pp qq (Spec.blockPoint d.xg.mat d.yg.mat t1 t2 t3 t4) gg ∧ Spec.Complete gg (pp * ls) (qq * lt) ∧
        writeMitgrid o gg (pp * ls) (qq * lt) = (file, .ok ()) ∧ regridMain geod fs fuel args o = some (file, .ok ()) ∧
        file.length = 8 * Spec.nDoubles (pp * ls) (qq * lt) := by
    intro args t1 t2 t3 t4 pp qq o h1 h2 h3 h4 h5 h6
    obtain ⟨dd, gg, k, R⟩ := regrid_inBlock geod fs fuel hf args d h1 hw hs t1 t2 t3 t4 ls lt h3.nw h3.se h3.u h3.v h4 h5 ls0 lt0
    rw [h6] at k R
    have hc : Spec.Complete gg (pp * ls) (qq * lt) := by
      obtain ⟨east, -, hv⟩ := R
      intro f
      obtain ⟨M, hM, r, cc, -⟩ := hv f
      exact ⟨M, hM, r, cc⟩
    obtain ⟨file, hwr, hlen, -⟩ := C02_byte_layout o gg (pp * ls) (qq * lt) hc.writable
    refine ⟨dd, gg, file, k, R, hc, hwr, ?_, hlen⟩
    have ea : ({ args with matrices := none } : RegridArgs F) = args := by cases args; cases h2; rfl
    unfold regridMain
    rw [ea, k]
    dsimp only
    rw [Int.toNat_natCast, Int.toNat_natCast, hwr]
  obtain ⟨-, -, szA, inA⟩ := partOf_block tw.u tw.v partA
  obtain ⟨-, -, szB, inB⟩ := partOf_block tw.u tw.v partB
  obtain ⟨dw, gw, fw, kw, Rw, cw, ww, mainw, lenw⟩ := run w u1 v1 u2 v2 p q ow hw' mw tw els elt hpq
  obtain ⟨da, ga, fa, ka, Ra, ca, wa, maina, -⟩ := run a a1 b1 a2 b2 pa qa oa ha ma ta els1 elt1 szA
  obtain ⟨db, gb, fb, kb, Rb, cb, wb, mainb, -⟩ := run b a3 b3 a4 b4 pb qb ob hb mb tb els2 elt2 szB
  -- corner points in the files
  have corners : ∀ (gg : Grid F) (o file : List Byte) (t1 t2 t3 t4 x0 y0 pp qq : Nat), Spec.RefinedGrid geod ls lt pp qq (Spec.blockPoint d.xg.mat d.yg.mat t1 t2 t3 t4) gg →
      Spec.Complete gg (pp * ls) (qq * lt) → writeMitgrid o gg (pp * ls) (qq * lt) = (file, .ok ()) →
      (∀ x y, x ≤ pp → y ≤ qq → Spec.inBlock t1 t2 t3 t4 x y = Spec.inBlock u1 v1 u2 v2 (x0 + x) (y0 + y)) →
      ∃ r X Y, readMitgrid file (pp * ls) (qq * lt) strict = .ok r ∧ r .XG = .arr X ∧ r .YG = .arr Y ∧
        ∀ c, Spec.cornerPt X Y c = Spec.partCorner (Spec.blockPoint d.xg.mat d.yg.mat u1 v1 u2 v2) x0 y0 pp qq c := by
    intro gg o file t1 t2 t3 t4 x0 y0 pp qq R hc hwr hin
    obtain ⟨file', r, hwr', hr, hsame⟩ := C01_round_trip ZeroLaw.isZero_zero o gg (pp * ls) (qq * lt) strict hc
    rw [hwr] at hwr'; cases hwr'
    obtain ⟨east, -, hv⟩ := R
    obtain ⟨X0, hX0, r1, r2, vX⟩ := hv .XG
    obtain ⟨Y0, hY0, r3, r4, vY⟩ := hv .YG
    obtain ⟨X, hX, sX⟩ := GridSame.arr hsame hX0
    obtain ⟨Y, hY, sY⟩ := GridSame.arr hsame hY0
    simp only [Spec.nrows, Spec.ncols] at r1 r2 r3 r4 vX vY
    refine ⟨r, X, Y, hr, hX, hY, fun c => ?_⟩
    have pt : ∀ x y, x ≤ pp → y ≤ qq → (X.get (x * ls) (y * lt), Y.get (x * ls) (y * lt)) = Spec.blockPoint d.xg.mat d.yg.mat u1 v1 u2 v2 (x0 + x) (y0 + y) := by
      intro x y hx hy
      have hx' : x * ls ≤ pp * ls := Nat.mul_le_mul_right _ hx
      have hy' : y * lt ≤ qq * lt := Nat.mul_le_mul_right _ hy
      have tp : ∀ i j : Nat, (Spec.refinedTile geod east ls lt pp qq (Spec.blockPoint d.xg.mat d.yg.mat t1 t2 t3 t4)).P ((2 * i : Nat) : Int) ((2 * j : Nat) : Int) =
          Spec.refined geod east ls lt (Spec.blockPoint d.xg.mat d.yg.mat t1 t2 t3 t4) (2 * i) (2 * j) := fun i j => rfl
      rw [← sX.2.2 _ _ (by omega) (by omega), ← sY.2.2 _ _ (by omega) (by omega), vX _ _ (by omega) (by omega), vY _ _ (by omega) (by omega)]
      simp only [Spec.Tile.entry, Spec.kind, Spec.halfI, Spec.halfJ, Spec.nrows, Spec.ncols, Nat.zero_add, Nat.one_ne_zero, if_false]
      rw [show (2 * ((x * ls : Nat) : Int)) = ((2 * (x * ls) : Nat) : Int) by push_cast; rfl, show (2 * ((y * lt : Nat) : Int)) = ((2 * (y * lt) : Nat) : Int) by push_cast; rfl,
        tp, refined_corner geod east ls lt ls0 lt0]
      unfold Spec.blockPoint
      rw [hin x y hx hy]
    have sr := sX.1
    have sc := sX.2.1
    unfold Spec.cornerPt Spec.partCorner
    dsimp only
    rw [show X.rows - 1 = pp * ls by omega, show X.cols - 1 = qq * lt by omega]
    have h00 := pt 0 0 (by omega) (by omega)
    have h01 := pt 0 qq (by omega) (by omega)
    have h10 := pt pp 0 (by omega) (by omega)
    have h11 := pt pp qq (by omega) (by omega)
    simp only [Nat.zero_mul, Nat.add_zero] at h00 h01 h10 h11
    obtain ⟨c1, c2⟩ := c
    cases c1 <;> cases c2
    · exact h00
    · exact h01
    · exact h10
    · exact h11
  obtain ⟨A, XA, YA, ra, xA, yA, cA⟩ := corners ga oa fa _ _ _ _ xa ya pa qa Ra ca wa inA
  obtain ⟨B, XB, YB, rb, xB, yB, cB⟩ := corners gb ob fb _ _ _ _ xb yb pb qb Rb cb wb inB
  have pos : ∀ x y : Nat, 0 < x → 0 < y → 1 ≤ x * y := fun x y hx hy => Nat.mul_pos hx hy
  have hcells : Spec.edgeCells (pa * ls) (qa * lt) e = Spec.edgeCells (pb * ls) (qb * lt) (Spec.oppositeSide e) := by
    cases e <;> simp only [Spec.FillBlock] at fill <;> obtain ⟨f1, f2, f3, f4, f5, f6, f7⟩ := fill <;> simp only [Spec.oppositeSide, Spec.edgeCells, f5, f6]
  obtain ⟨x, c, hx, hc⟩ := share_side_stitch geod strict fa fb (pa * ls) (qa * lt) (pb * ls) (qb * lt) (pos _ _ partA.hp ls0) (pos _ _ partA.hq lt0)
    (pos _ _ partB.hp ls0) (pos _ _ partB.hq lt0) A B ra rb XA YA XB YB xA yA xB yB _ _ cA cB e (Spec.oppositeSide e) (PartsApart.shareSide apart fill) hcells
  obtain ⟨dw', gw', kw', key⟩ := C137_stitched geod fs fuel hf d hw hs w a b hw' ha hb u1 v1 u2 v2 a1 b1 a2 b2 a3 b3 a4 b4 tw ta tb xa ya pa qa xb yb pb qb
    partA partB ls lt ls0 lt0 els elt els1 elt1 els2 elt2 p q hpq la lb e _ fill da db ga gb _ _ _ _ ka kb oa ob fa fb wa wb strict x c _ _ hx hc
  rw [kw] at kw'
  have e1 := congrArg (fun t => (t.map fun z => z.2)) kw'
  simp only [Option.map_some, Option.some.injEq, Except.ok.injEq, Prod.mk.injEq, Int.natCast_inj] at e1
  obtain ⟨rfl, e2, e3⟩ := e1
  obtain ⟨bytes, hmain, hlen, hread⟩ := (C67_sgstitch geod strict fa fb (pa * ls) (qa * lt) (pb * ls) (qb * lt) old).2 c _ _ hc
  obtain ⟨c', rc, sc⟩ := hread true
  obtain ⟨fw', g', hwr', rg, sg⟩ := C01_round_trip ZeroLaw.isZero_zero ow gw (p * ls) (q * lt) true cw
  rw [ww] at hwr'; cases hwr'
  rw [← e2, ← e3] at hlen rc
  refine ⟨fw, fa, fb, bytes, g', c', mainw, maina, mainb, hmain, by rw [hlen, lenw], rg, rc, fun f => ?_⟩
  obtain ⟨M, C, hM, hC, r1, r2, val⟩ := key f
  obtain ⟨M', hM', sM⟩ := GridSame.arr sg hM
  obtain ⟨C', hC', sC⟩ := GridSame.arr sc hC
  obtain ⟨_, q1, q2, q3⟩ := cw f
  rw [hM] at q1; cases q1
  refine ⟨M', C', hM', hC', fun hform i j hi hj hseam hnz => ?_⟩
  have m := sM.2.2 i j (by omega) (by omega)
  rw [← sC.2.2 i j (by omega) (by omega), ← m]
  rw [← m] at hnz
  exact val hform i j (by omega) (by omega) hseam hnz

end regrid

/-! ## A case: the grid of 4 x 3 points `exWide` in two csv files, cut in parts with 1 and 2 cells in x, twice as many cells in x -/

def exWideFiles : Files Toy where
  bin := fun _ => none
  csv := fun n => if n = "x.csv" then .ok exWide.xg.mat else if n = "y.csv" then .ok exWide.yg.mat else .error .ioError

def exWideCsv : MatDict Toy := { exWide with rest := Grid.allNone }

def exCutCall (lon1 lat1 lon2 lat2 : Toy) : RegridArgs Toy :=
  { exArgs lon1 lat1 lon2 lat2 2 1 with matrices := none, xgFile := some "x.csv", ygFile := some "y.csv", ni := some 3, nj := some 2 }

theorem exCutCall_source (lon1 lat1 lon2 lat2 : Toy) : readSource exWideFiles (exCutCall lon1 lat1 lon2 lat2) = .ok exWideCsv := by
  unfold readSource exCutCall
  rw [show strTruthy (exArgs lon1 lat1 lon2 lat2 2 1).mitgridfile = none from rfl]
  rfl

theorem exCutApart : Spec.PartsApart Toy.geod (Spec.blockPoint exWide.xg.mat exWide.yg.mat 0 2 3 0) 0 0 1 2 1 0 2 2 .E := by
  refine ⟨by decide +kernel, ?_, ?_, ?_⟩ <;> rintro ⟨a, b⟩ <;> cases a <;> cases b <;> decide +kernel

example : ∃ (fw fa fb bytes : List Byte) (g c : Grid Toy), regridMain Toy.geod exWideFiles 4 (exCutCall 0 20 30 0) [] = some (fw, .ok ()) ∧
    regridMain Toy.geod exWideFiles 4 (exCutCall 0 20 10 0) [] = some (fa, .ok ()) ∧ regridMain Toy.geod exWideFiles 4 (exCutCall 10 20 30 0) [] = some (fb, .ok ()) ∧
    stitchMain (F := Toy) Toy.geod true fa 2 2 fb 4 2 [] = (bytes, .ok ()) ∧ bytes.length = fw.length ∧
    readMitgrid fw 6 2 true = .ok g ∧ readMitgrid bytes 6 2 true = .ok c ∧
    ∀ f, ∃ M C, g f = .arr M ∧ c f = .arr C ∧ ∀ i j, i < Spec.nrows f 6 → j < Spec.ncols f 2 → ¬ Spec.SeamTerm f 2 2 4 2 i j .E →
      (PyFloat.isZero (M.get i j) = false ∨ f = .XG ∨ f = .YG) → C.get i j = M.get i j := by
  obtain ⟨fw, fa, fb, bytes, g, c, h1, h2, h3, h4, h5, h6, h7, h8⟩ := C138_cut_and_join Toy.geod exWideFiles 4 (by decide) exWideCsv
    ⟨rfl, rfl, by decide, by decide⟩ (exCutCall 0 20 30 0) (exCutCall 0 20 10 0) (exCutCall 10 20 30 0) (exCutCall_source _ _ _ _) (exCutCall_source _ _ _ _)
    (exCutCall_source _ _ _ _) rfl rfl rfl 0 2 3 0 0 2 1 0 1 2 3 0 ⟨exWhole.nw, exWhole.se, exWhole.u, exWhole.v⟩
    ⟨exPartA.1.nw, exPartA.1.se, exPartA.1.u, exPartA.1.v⟩ ⟨exPartB.1.nw, exPartB.1.se, exPartB.1.u, exPartB.1.v⟩ 0 0 1 2 1 0 2 2 exPartA.2 exPartB.2
    2 1 (by decide) (by decide) rfl rfl rfl rfl rfl rfl 3 2 rfl (fun _ => exNonNeg) (fun _ => exNonNeg) .E (by unfold Spec.FillBlock; decide) exCutApart true [] [] [] []
  refine ⟨fw, fa, fb, bytes, g, c, h1, h2, h3, h4, h5, h6, h7, fun f => ?_⟩
  obtain ⟨M, C, e1, e2, v⟩ := h8 f
  exact ⟨M, C, e1, e2, v fun _ => exFormula⟩

end SG
