import Verif.Props.RegridSource
import Verif.Props.MkGrid
import Verif.Props.Stitch
import Verif.Lemmas.GetObcs
/-! # Command line programs one after the other (C76-C78) -/

set_option linter.unusedSectionVars false
namespace SG
variable {F : Type} [PyFloat F] [F64 F]

theorem same_trans {α : Type} {a b c : Mat α} (h : a.Same b) (h' : b.Same c) : a.Same c := by
  obtain ⟨h1, h2, h3⟩ := h
  obtain ⟨k1, k2, k3⟩ := h'
  exact ⟨h1.trans k1, h2.trans k2, fun i j hi hj => (h3 i j hi hj).trans (k3 i j (by omega) (by omega))⟩

theorem same_symm {α : Type} {a b : Mat α} (h : a.Same b) : b.Same a := by
  obtain ⟨h1, h2, h3⟩ := h
  exact ⟨h1.symm, h2.symm, fun i j hi hj => (h3 i j (by omega) (by omega)).symm⟩

/-- Arrays read from files have an ordinary memory order. -/
theorem readSource_files_wf (fs : Files F) (a : RegridArgs F) (hm : a.matrices = none) (d : MatDict F)
    (h : readSource fs a = .ok d) : d.xg.WF := by
  unfold readSource at h
  split at h
  · split at h
    · obtain ⟨b, -, h⟩ := bind_ok_inv h
      obtain ⟨g, -, h⟩ := bind_ok_inv h
      obtain ⟨x, -, h⟩ := bind_ok_inv h
      obtain ⟨y, -, h⟩ := bind_ok_inv h
      cases h; exact NArr.ofF_wf _
    · cases h
  · split at h
    · split at h
      · split at h
        · obtain ⟨x, -, h⟩ := bind_ok_inv h
          obtain ⟨y, -, h⟩ := bind_ok_inv h
          cases h; exact NArr.ofC_wf _
        · obtain ⟨b, -, h⟩ := bind_ok_inv h
          obtain ⟨x, -, h⟩ := bind_ok_inv h
          obtain ⟨b', -, h⟩ := bind_ok_inv h
          obtain ⟨y, -, h⟩ := bind_ok_inv h
          cases h; exact NArr.ofF_wf _
      · cases h
    · rw [hm] at h
      cases h

/-- **C76**: `sgregrid` runs `regrid` on its command line arguments.  If that raises, the output file is as before; if it returns a
grid with counts `ni`, `nj`, the output file has exactly the documented length for these counts, and reading it (strictly or not) gives
the grid; if it does not stop, neither does the program. -/
theorem C76_sgregrid [LawfulF64 F] [ZeroLaw F] (geod : Geod F) (fs : Files F) (fuel : Nat) (a : RegridArgs F)
    (hm : a.matrices = none) (old : List Byte) :
    (regrid geod fs fuel a = none ↔ regridMain geod fs fuel a old = none) ∧
    (∀ d e, regrid geod fs fuel a = some (d, .error e) → regridMain geod fs fuel a old = some (old, .error e)) ∧
    (∀ d (g : Grid F) ni nj, regrid geod fs fuel a = some (d, .ok (g, ni, nj)) →
      ∃ (m n : Nat) (bytes : List Byte), ni = m ∧ nj = n ∧ regridMain geod fs fuel a old = some (bytes, .ok ()) ∧
        bytes.length = 8 * Spec.nDoubles m n ∧
        ∀ strict, ∃ g', readMitgrid bytes m n strict = .ok g' ∧ Spec.GridSame g g') := by
  have ea : ({ a with matrices := none } : RegridArgs F) = a := by cases a; cases hm; rfl
  unfold regridMain
  rw [ea]
  refine ⟨?_, ?_, ?_⟩
  · constructor
    · intro h; rw [h]
    · intro h
      cases hr : regrid geod fs fuel a with
      | none => rfl
      | some x =>
        obtain ⟨d, r⟩ := x
        rw [hr] at h
        cases r <;> cases h
  · intro d e h; rw [h]
  · intro d g ni nj h
    cases hs : readSource fs a with
    | error e => unfold regrid at h; rw [hs] at h; cases h
    | ok d0 =>
      obtain ⟨_, _, _, _, _, _, _, _, _, _, _, p, q, ls, lt, _, _, _, _, _, _, _, _, _, e1, e2, hc, -⟩ :=
        regrid_success geod fs fuel a d0 hs (readSource_files_wf fs a hm d0 hs) d g ni nj h
      obtain ⟨bytes, hw, hlen, -⟩ := C02_byte_layout old g (p * ls) (q * lt) hc.writable
      refine ⟨p * ls, q * lt, bytes, e1, e2, ?_, hlen, fun strict => ?_⟩
      · rw [h]
        dsimp only
        rw [e1, e2, Int.toNat_natCast, Int.toNat_natCast, hw]
      · obtain ⟨bytes', g', hw', hr, hsame⟩ := C01_round_trip ZeroLaw.isZero_zero old g (p * ls) (q * lt) strict hc
        rw [hw] at hw'
        cases hw'
        exact ⟨g', hr, hsame⟩

/-- The arguments of `sgregrid` on a grid file. -/
def Spec.cliArgs (strict : Bool) (file : String) (ni nj : Nat) (lon1 lat1 lon2 lat2 : F) (lonSub latSub : Int) : RegridArgs F :=
  ⟨strict, some file, none, none, none, some ni, some nj, lon1, lat1, lon2, lat2, lonSub, latSub⟩

theorem readSource_cli (fs : Files F) (strict : Bool) (f : String) (hf : f ≠ "") (ni nj : Nat) (h1 : 1 ≤ ni) (h2 : 1 ≤ nj)
    (lon1 lat1 lon2 lat2 : F) (ls lt : Int) (bytes : List Byte) (hb : fs.bin f = some bytes) (g : Grid F)
    (hr : readMitgrid bytes ni nj strict = .ok g) (X Y : Mat F) (hx : g .XG = .arr X) (hy : g .YG = .arr Y) :
    readSource fs (Spec.cliArgs strict f ni nj lon1 lat1 lon2 lat2 ls lt) = .ok ⟨.ofF X, .ofF Y, g⟩ := by
  unfold readSource Spec.cliArgs strTruthy natTruthy Files.open
  simp only [hf, if_false, show ni ≠ 0 by omega, show nj ≠ 0 by omega, hb]
  rw [Py.ok_bind, hr, Py.ok_bind]
  unfold Grid.arr
  rw [hx, hy]
  rfl

/-- **C77**: `sgmkgrid` writes a grid file for the corner points `(lon1,lat1)`, `(lon2,lat2)`; `sgregrid` on that file with the same two
points, whose nearest grid points are the corners, and subscale 1 succeeds, and the new file has the same counts and the same `XG` and `YG`
(the output may be the input file itself).  -/
theorem C77_mkgrid_then_regrid [FloatOrder F] [LawfulF64 F] [ZeroLaw F] (geod : Geod F) (lon1 lat1 lon2 lat2 : F) (m n : Nat)
    (hm : 1 ≤ m) (hn : 1 ≤ n) (old old' : List Byte) (g : Grid F) (X Y : Mat F)
    (hg : mkgrid geod lon1 lat1 lon2 lat2 m n = .ok (g, (m : Int), (n : Int))) (hx : g .XG = .arr X) (hy : g .YG = .arr Y)
    (u1 : Spec.UniqueNearest geod lon1 lat1 (.ofF X, .ofF Y) 0 n) (u2 : Spec.UniqueNearest geod lon2 lat2 (.ofF X, .ofF Y) m 0)
    (fs : Files F) (f : String) (hf : f ≠ "") (hb : fs.bin f = some (mkgridMain geod lon1 lat1 lon2 lat2 m n old).1)
    (strict : Bool) (fuel : Nat) (hfuel : 4 ≤ fuel) :
    ∃ bytes g' X' Y', regridMain geod fs fuel (Spec.cliArgs strict f m n lon1 lat1 lon2 lat2 1 1) old' = some (bytes, .ok ()) ∧
      readMitgrid bytes m n true = .ok g' ∧ g' .XG = .arr X' ∧ g' .YG = .arr Y' ∧ X.Same X' ∧ Y.Same Y' := by
  obtain ⟨g0, e0, hc0⟩ := C27_mkgrid_sizes geod lon1 lat1 lon2 lat2 m n hm hn
  rw [hg] at e0; cases e0
  obtain ⟨bytes, g1, hw, hr, hs⟩ := C01_round_trip ZeroLaw.isZero_zero old g m n strict hc0
  have hmain : mkgridMain geod lon1 lat1 lon2 lat2 m n old = (bytes, .ok ()) := by
    unfold mkgridMain; rw [hg]; exact hw
  rw [hmain] at hb
  -- the arrays as read
  have get : ∀ f' M, g f' = .arr M → ∃ M', g1 f' = .arr M' ∧ M.Same M' := by
    intro f' M hM
    have := hs f'
    rw [hM] at this
    cases h1 : g1 f' with
    | arr M' => rw [h1] at this; exact ⟨M', rfl, this⟩
    | none_ => rw [h1] at this; exact this.elim
    | absent => rw [h1] at this; exact this.elim
  obtain ⟨X1, hx1, sx⟩ := get _ _ hx
  obtain ⟨Y1, hy1, sy⟩ := get _ _ hy
  have hsrc := readSource_cli fs strict f hf m n hm hn lon1 lat1 lon2 lat2 1 1 bytes hb g1 hr X1 Y1 hx1 hy1
  obtain ⟨Xm, ex, xr, xc⟩ := hc0 .XG
  obtain ⟨Ym, ey, yr, yc⟩ := hc0 .YG
  rw [hx] at ex; cases ex
  rw [hy] at ey; cases ey
  simp only [Spec.nrows, Spec.ncols] at xr xc yr yc
  have un : ∀ lon lat i j, Spec.UniqueNearest geod lon lat (.ofF X, .ofF Y) i j →
      Spec.UniqueNearest geod lon lat (.ofF X1, .ofF Y1) i j := by
    rintro lon lat i j ⟨hi, hj, hlt, hu⟩
    obtain ⟨r1, c1, v1⟩ := sx
    obtain ⟨r2, c2, v2⟩ := sy
    have dd : ∀ i j, i < X.rows → j < X.cols → Spec.dist geod lon lat X1 Y1 i j = Spec.dist geod lon lat X Y i j := by
      intro i j hi hj
      unfold Spec.dist
      rw [v1 i j hi hj, v2 i j (by omega) (by omega)]
    change i < X.rows at hi
    change j < X.cols at hj
    refine ⟨by show i < X1.rows; omega, by show j < X1.cols; omega, ?_, fun i' j' hi' hj' hne => ?_⟩
    · show PyFloat.lt (Spec.dist geod lon lat X1 Y1 i j) _ = true
      rw [dd i j hi hj]; exact hlt
    · change i' < X1.rows at hi'
      change j' < X1.cols at hj'
      show PyFloat.lt (Spec.dist geod lon lat X1 Y1 i j) (Spec.dist geod lon lat X1 Y1 i' j') = true
      rw [dd i j hi hj, dd i' j' (by omega) (by omega)]
      exact hu i' j' (by show i' < X.rows; omega) (by show j' < X.cols; omega) hne
  have shp : Spec.SameShape (NArr.ofF X1) (NArr.ofF Y1) := by
    obtain ⟨r1, c1, -⟩ := sx
    obtain ⟨r2, c2, -⟩ := sy
    unfold Spec.SameShape
    show X1.rows = Y1.rows ∧ X1.cols = Y1.cols ∧ 0 < X1.rows ∧ 0 < X1.cols
    omega
  obtain ⟨d', g2, X2, Y2, hreg, hx2, hy2, s2x, s2y, hc2⟩ := C39_identity geod fs (Spec.cliArgs strict f m n lon1 lat1 lon2 lat2 1 1)
    ⟨.ofF X1, .ofF Y1, g1⟩ hsrc (NArr.ofF_wf _) shp m n (by show X1.rows = _; have := sx.1; omega)
    (by show X1.cols = _; have := sx.2.1; omega) hm hn ⟨rfl, rfl⟩ (un _ _ _ _ u1) (un _ _ _ _ u2) fuel hfuel
  obtain ⟨m', n', bytes2, em, en, hmain2, -, hread⟩ :=
    (C76_sgregrid geod fs fuel (Spec.cliArgs strict f m n lon1 lat1 lon2 lat2 1 1) rfl old').2.2 d' g2 m n hreg
  have : m' = m := by exact_mod_cast em.symm
  subst this
  have : n' = n := by exact_mod_cast en.symm
  subst this
  obtain ⟨g3, hr3, hs3⟩ := hread true
  have get3 : ∀ f' M, g2 f' = .arr M → ∃ M', g3 f' = .arr M' ∧ M.Same M' := by
    intro f' M hM
    have := hs3 f'
    rw [hM] at this
    cases h1 : g3 f' with
    | arr M' => rw [h1] at this; exact ⟨M', rfl, this⟩
    | none_ => rw [h1] at this; exact this.elim
    | absent => rw [h1] at this; exact this.elim
  obtain ⟨X3, hx3, s3x⟩ := get3 _ _ hx2
  obtain ⟨Y3, hy3, s3y⟩ := get3 _ _ hy2
  refine ⟨bytes2, g3, X3, Y3, hmain2, hr3, hx3, hy3, ?_, ?_⟩
  · exact same_trans (same_trans sx (same_symm s2x)) s3x
  · exact same_trans (same_trans sy (same_symm s2y)) s3y

/-! ## C78: adjacent tiles -/

/-- The corner points of a tile made by `mkgrid`. -/
def Spec.boxCorner (lon1 lat1 lon2 lat2 : F) (c : Spec.Corner) : F × F :=
  (if c.1 then lon2 else lon1, if c.2 then lat1 else lat2)

/-- A millionth of the mean diagonal of two tiles with the given corner points (distances as `geod.inv` gives them). -/
def Spec.boxTolerance (geod : Geod F) (a b : Spec.Corner → F × F) : F :=
  (Spec.cdist geod (a (false, false)) (a (true, true)) +ₚ Spec.cdist geod (a (true, false)) (a (false, true)) +ₚ
    Spec.cdist geod (b (false, false)) (b (true, true)) +ₚ Spec.cdist geod (b (true, false)) (b (false, true)))
    /ₚ PyFloat.four *ₚ PyFloat.tol

/-- A grid written by `sgmkgrid`, as read back: its arrays and its corner points. -/
theorem mkgrid_file [LawfulF64 F] [ZeroLaw F] (geod : Geod F) (lon1 lat1 lon2 lat2 : F) (m n : Nat) (hm : 1 ≤ m) (hn : 1 ≤ n)
    (old : List Byte) (strict : Bool) :
    ∃ g g' X Y X' Y', mkgrid geod lon1 lat1 lon2 lat2 m n = .ok (g, (m : Int), (n : Int)) ∧
      readMitgrid (mkgridMain geod lon1 lat1 lon2 lat2 m n old).1 m n strict = .ok g' ∧
      g .XG = .arr X ∧ g .YG = .arr Y ∧ g' .XG = .arr X' ∧ g' .YG = .arr Y' ∧ X.Same X' ∧ Y.Same Y' ∧
      X'.rows = m + 1 ∧ X'.cols = n + 1 ∧ Y'.rows = m + 1 ∧ Y'.cols = n + 1 ∧
      ∀ c, Spec.cornerPt X' Y' c = Spec.boxCorner lon1 lat1 lon2 lat2 c := by
  obtain ⟨g, hg, hc⟩ := C27_mkgrid_sizes geod lon1 lat1 lon2 lat2 m n hm hn
  obtain ⟨bytes, g', hw, hr, hs⟩ := C01_round_trip ZeroLaw.isZero_zero old g m n strict hc
  have hmain : (mkgridMain geod lon1 lat1 lon2 lat2 m n old).1 = bytes := by
    unfold mkgridMain; rw [hg]; exact congrArg Prod.fst hw
  rw [hmain]
  have get : ∀ f' M, g f' = .arr M → ∃ M', g' f' = .arr M' ∧ M.Same M' := by
    intro f' M hM
    have := hs f'
    rw [hM] at this
    cases h1 : g' f' with
    | arr M' => rw [h1] at this; exact ⟨M', rfl, this⟩
    | none_ => rw [h1] at this; exact this.elim
    | absent => rw [h1] at this; exact this.elim
  obtain ⟨X, Y, hx, hy, ⟨nx, ny⟩, ⟨sx, sy⟩, ⟨wx, wy⟩, ⟨ex, ey⟩⟩ := C26_mkgrid_corners geod lon1 lat1 lon2 lat2 m n hm hn g m n hg
  obtain ⟨X', hx', ssx⟩ := get _ _ hx
  obtain ⟨Y', hy', ssy⟩ := get _ _ hy
  obtain ⟨Xm, e1, xr, xc⟩ := hc .XG
  obtain ⟨Ym, e2, yr, yc⟩ := hc .YG
  rw [hx] at e1; cases e1
  rw [hy] at e2; cases e2
  simp only [Spec.nrows, Spec.ncols] at xr xc yr yc
  have r1 := ssx.1
  have c1 := ssx.2.1
  have r2 := ssy.1
  have c2 := ssy.2.1
  refine ⟨g, g', X, Y, X', Y', hg, hr, hx, hy, hx', hy', ssx, ssy, by omega, by omega, by omega, by omega, fun c => ?_⟩
  have key : ∀ (M M' : Mat F) (c : Bool × Bool) (v : F), M.Same M' → M.rows = m + 1 → M.cols = n + 1 →
      M.atI (cornerIdx c).1 (cornerIdx c).2 = .ok v →
      M'.get (if c.1 then m else 0) (if c.2 then n else 0) = v := by
    intro M M' c v hs hr hc h
    rw [atI_corner M (by omega) (by omega) c, hr, hc] at h
    rw [← hs.2.2 _ _ (by split <;> omega) (by split <;> omega)]
    simpa using h
  unfold Spec.cornerPt Spec.boxCorner
  dsimp only
  rw [show X'.rows - 1 = m by omega, show X'.cols - 1 = n by omega]
  obtain ⟨a, b⟩ := c
  cases a <;> cases b
  · rw [key X X' (false, false) lon1 ssx xr xc wx, key Y Y' (false, false) lat2 ssy yr yc wy]; rfl
  · rw [key X X' (false, true) lon1 ssx xr xc nx, key Y Y' (false, true) lat1 ssy yr yc ny]; rfl
  · rw [key X X' (true, false) lon2 ssx xr xc sx, key Y Y' (true, false) lat2 ssy yr yc sy]; rfl
  · rw [key X X' (true, true) lon2 ssx xr xc ex, key Y Y' (true, true) lat1 ssy yr yc ey]; rfl

/-- `stitch` accepts two readable tiles whose edges match and have equally many cells. -/
theorem stitch_accepts [ZeroLaw F] [FloatOrder F] (geod : Geod F) (strict : Bool) (fa fb : List Byte)
    (nia nja nib njb : Nat) (h1 : 0 < nia) (h2 : 0 < nja) (a b : Grid F) (aXG aYG bXG bYG : Mat F) (M : Matched F)
    (hra : readMitgrid fa nia nja strict = .ok a) (hrb : readMitgrid fb nib njb strict = .ok b)
    (hax : a .XG = .arr aXG) (hay : a .YG = .arr aYG) (hbx : b .XG = .arr bXG) (hby : b .YG = .arr bYG)
    (hm : matchedges geod aXG aYG bXG bYG = .ok M) (he : Spec.edgeCells nia nja M.aEdge = Spec.edgeCells nib njb M.bEdge) :
    ∃ (a' c : Grid F), addfringe geod strict fa nia nja fb nib njb = .ok (M.aEdge, M.bEdge, a') ∧
      stitch geod strict fa nia nja fb nib njb = .ok (c, Spec.joinedSize nia nja nib njb M.aEdge) ∧
      Spec.Joined nia nja nib njb M.aEdge a' b c := by
  obtain ⟨a', ha⟩ := C43_addfringe_accepts geod strict fa fb nia nja nib njb h1 h2 a b aXG aYG bXG bYG M hra hrb hax hay hbx hby hm
  obtain ⟨ho, _⟩ := addfringe_fits geod strict fa fb nia nja nib njb _ _ a' ha
  obtain ⟨p1, -⟩ := join_spec _ _ ho a' b nia nja nib njb
    (C43_addfringe_keeps geod strict fa fb nia nja nib njb _ _ a' ha).1 (read_complete fb nib njb strict b hrb)
  obtain ⟨c, hc, hj⟩ := p1 he
  refine ⟨a', c, ha, ?_, hj⟩
  unfold stitch
  rw [ha, Py.ok_bind]
  dsimp only
  rw [hrb, Py.ok_bind]
  exact hc

/-- **C66**, the whole call: two readable tiles whose east and west edges coincide crosswise are stitched without error, tile B's points being
joined to tile A's in the order of their indices: the point east of tile A's south-east corner is `(1,0)` of tile B, the neighbour of tile B's
south-west corner, which is tile A's north-east corner; likewise at the other end. -/
theorem C66_stitch_joins_crosswise [ZeroLaw F] [FloatTotal F] (geod : Geod F) (strict : Bool) (fa fb : List Byte)
    (nia nib n : Nat) (hia : 0 < nia) (hib : 0 < nib) (hn : 0 < n) (a b : Grid F) (aXG aYG bXG bYG : Mat F)
    (hra : readMitgrid fa nia n strict = .ok a) (hrb : readMitgrid fb nib n strict = .ok b)
    (hax : a .XG = .arr aXG) (hay : a .YG = .arr aYG) (hbx : b .XG = .arr bXG) (hby : b .YG = .arr bYG)
    (hfin : PyFloat.le PyFloat.inf (Spec.tolerance geod aXG aYG bXG bYG) = false)
    (h1 : (aXG.get nia 0, aYG.get nia 0) = (bXG.get 0 n, bYG.get 0 n))
    (h2 : (aXG.get nia n, aYG.get nia n) = (bXG.get 0 0, bYG.get 0 0))
    (hself : ∀ k, PyFloat.le (Spec.cdist geod (Spec.cornerPt aXG aYG (true, k)) (Spec.cornerPt aXG aYG (true, k)))
      (Spec.tolerance geod aXG aYG bXG bYG) = true)
    (h3 : ¬ Spec.NearA geod aXG aYG bXG bYG (false, false)) :
    ∃ c cXG cYG, stitch geod strict fa nia n fb nib n = .ok (c, nia + nib, n) ∧ c .XG = .arr cXG ∧ c .YG = .arr cYG ∧
      (∀ i j, i ≤ nia → j ≤ n → cXG.get i j = aXG.get i j ∧ cYG.get i j = aYG.get i j) ∧
      ∀ i j, 1 ≤ i → i ≤ nib → j ≤ n → cXG.get (nia + i) j = bXG.get i j ∧ cYG.get (nia + i) j = bYG.get i j := by
  have shape : ∀ (g : Grid F) (m k : Nat) (f : Field) (X : Mat F), Spec.Complete g m k → g f = .arr X →
      X.rows = Spec.nrows f m ∧ X.cols = Spec.ncols f k := by
    intro g m k f X hc hx
    obtain ⟨X', e, r⟩ := hc f
    rw [hx] at e
    cases e
    exact r
  have ca := read_complete fa nia n strict a hra
  have cb := read_complete fb nib n strict b hrb
  obtain ⟨a1, a2⟩ := shape a nia n .XG _ ca hax
  obtain ⟨a3, a4⟩ := shape a nia n .YG _ ca hay
  obtain ⟨b1, b2⟩ := shape b nib n .XG _ cb hbx
  obtain ⟨b3, b4⟩ := shape b nib n .YG _ cb hby
  simp only [Spec.nrows, Spec.ncols] at a1 a2 a3 a4 b1 b2 b3 b4
  obtain ⟨M, hM, e1, e2⟩ := C66_crossed_edges_accepted geod aXG aYG bXG bYG ⟨by omega, by omega, by omega, by omega⟩
    ⟨by omega, by omega, by omega, by omega⟩ hfin
    (by simpa [Spec.cornerPt, a1, a2, a3, a4, b1, b2, b3, b4] using h1)
    (by simpa [Spec.cornerPt, a1, a2, a3, a4, b1, b2, b3, b4] using h2) hself h3
    ⟨by show 2 ≤ aXG.cols; omega, by show aXG.cols ≤ bXG.cols; omega, by show 2 ≤ bXG.rows; omega⟩
  obtain ⟨a', c, hadd, hst, hj⟩ := stitch_accepts geod strict fa fb nia n nib n hia hn a b aXG aYG bXG bYG M hra hrb hax hay hbx hby hM
    (by rw [e1, e2]; rfl)
  rw [e1] at hst hj
  obtain ⟨-, a0, hra0, hk⟩ := C43_addfringe_keeps geod strict fa fb nia n nib n _ _ a' hadd
  rw [hra] at hra0
  cases hra0
  have one : ∀ f, f = .XG ∨ f = .YG → ∀ A B, a f = .arr A → b f = .arr B → ∃ C, c f = .arr C ∧
      (∀ i j, i ≤ nia → j ≤ n → C.get i j = A.get i j) ∧
      ∀ i j, 1 ≤ i → i ≤ nib → j ≤ n → C.get (nia + i) j = B.get i j := by
    intro f hf A B hA hB
    obtain ⟨A0, R, hA0, hR, hval⟩ := hk f
    rw [hA] at hA0
    cases hA0
    obtain ⟨A1, B1, C, hA1, hB1, hC, cr, cc, hget⟩ := hj f
    rw [hR] at hA1
    cases hA1
    rw [hB] at hB1
    cases hB1
    have hr : Spec.nrows f nia = nia + 1 := by rcases hf with rfl | rfl <;> rfl
    have hr' : C.rows = nia + nib + 1 := by rw [cr]; rcases hf with rfl | rfl <;> rfl
    have hc' : C.cols = n + 1 := by rw [cc]; rcases hf with rfl | rfl <;> rfl
    have hcn : Spec.ncols f n = n + 1 := by rcases hf with rfl | rfl <;> rfl
    refine ⟨C, hC, fun i j hi hj' => ?_, fun i j hi hi' hj' => ?_⟩
    · rw [hget i j (by omega) (by omega)]
      simp only [Spec.joinedAt, hr]
      rw [if_pos (by omega)]
      exact hval i j (by omega) (by omega) (Or.inr hf)
    · rw [hget (nia + i) j (by omega) (by omega)]
      simp only [Spec.joinedAt, hr]
      rw [if_neg (by omega), Nat.add_sub_cancel_left]
  obtain ⟨CX, hCX, x1, x2⟩ := one .XG (Or.inl rfl) aXG bXG hax hbx
  obtain ⟨CY, hCY, y1, y2⟩ := one .YG (Or.inr rfl) aYG bYG hay hby
  exact ⟨c, CX, CY, hst, hCX, hCY, fun i j hi hj' => ⟨x1 i j hi hj', y1 i j hi hj'⟩,
    fun i j hi hi' hj' => ⟨x2 i j hi hi' hj', y2 i j hi hi' hj'⟩⟩

/-- The hypotheses on the distances between the corner points of two tiles made by `mkgrid` side by side (A west of B):
the tolerance is a number, the common corner points are within the tolerance of themselves, and one of the western corners of tile A is
farther than that from all corners of tile B. -/
structure Spec.SideBySide (geod : Geod F) (lon1 lonM lon2 lat1 lat2 : F) : Prop where
  finite : PyFloat.le PyFloat.inf
    (Spec.boxTolerance geod (Spec.boxCorner lon1 lat1 lonM lat2) (Spec.boxCorner lonM lat1 lon2 lat2)) = false
  common : ∀ north : Bool, PyFloat.le
    (Spec.cdist geod (lonM, if north then lat1 else lat2) (lonM, if north then lat1 else lat2))
    (Spec.boxTolerance geod (Spec.boxCorner lon1 lat1 lonM lat2) (Spec.boxCorner lonM lat1 lon2 lat2)) = true
  apart : ∃ north : Bool, ∀ c, PyFloat.le
    (Spec.cdist geod (lon1, if north then lat1 else lat2) (Spec.boxCorner lonM lat1 lon2 lat2 c))
    (Spec.boxTolerance geod (Spec.boxCorner lon1 lat1 lonM lat2) (Spec.boxCorner lonM lat1 lon2 lat2)) = false

/-- **C78**: two tiles made by `sgmkgrid` from boxes with a common side (longitudes `lon1..lonM` and `lonM..lon2`, the same latitudes,
the same number `n` of cells along the side) are stitched by `sgstitch` into a file for `ma+mb` by `n` cells that passes a strict read;
its `XG` and `YG` are those of the western tile and, east of the common side, those of the eastern tile. -/
theorem C78_adjacent_tiles [FloatTotal F] [LawfulF64 F] [ZeroLaw F] (geod : Geod F) (lon1 lonM lon2 lat1 lat2 : F) (ma mb n : Nat)
    (hma : 1 ≤ ma) (hmb : 1 ≤ mb) (hn : 1 ≤ n) (h : Spec.SideBySide geod lon1 lonM lon2 lat1 lat2)
    (olda oldb old : List Byte) (strict : Bool) :
    ∃ bytes c a b, stitchMain (F := F) geod strict (mkgridMain geod lon1 lat1 lonM lat2 ma n olda).1 ma n
        (mkgridMain geod lonM lat1 lon2 lat2 mb n oldb).1 mb n old = (bytes, .ok ()) ∧
      readMitgrid bytes (ma + mb) n true = .ok c ∧
      mkgrid geod lon1 lat1 lonM lat2 ma n = .ok (a, (ma : Int), (n : Int)) ∧
      mkgrid geod lonM lat1 lon2 lat2 mb n = .ok (b, (mb : Int), (n : Int)) ∧
      ∀ f, f = .XG ∨ f = .YG → ∃ A B C, a f = .arr A ∧ b f = .arr B ∧ c f = .arr C ∧
        (∀ i j, i ≤ ma → j ≤ n → C.get i j = A.get i j) ∧
        (∀ i j, 1 ≤ i → i ≤ mb → j ≤ n → C.get (ma + i) j = B.get i j) := by
  obtain ⟨ga, a, XA, YA, xa, ya, ka, ra, hxa0, hya0, hxa, hya, ssxa, ssya, a1, a2, a3, a4, ca⟩ :=
    mkgrid_file geod lon1 lat1 lonM lat2 ma n hma hn olda strict
  obtain ⟨gb, b, XB, YB, xb, yb, kb, rb, hxb0, hyb0, hxb, hyb, ssxb, ssyb, b1, b2, b3, b4, cb⟩ :=
    mkgrid_file geod lonM lat1 lon2 lat2 mb n hmb hn oldb strict
  have tol : Spec.tolerance geod xa ya xb yb =
      Spec.boxTolerance geod (Spec.boxCorner lon1 lat1 lonM lat2) (Spec.boxCorner lonM lat1 lon2 lat2) := by
    unfold Spec.tolerance Spec.boxTolerance
    simp only [ca, cb]
  have nearE : ∀ c : Spec.Corner, c.1 = true → Spec.NearA geod xa ya xb yb c := by
    rintro ⟨e, nn⟩ he
    refine ⟨(false, nn), ?_⟩
    rw [tol, ca, cb]
    dsimp only at he
    subst he
    exact h.common nn
  have nearW : ∀ c : Spec.Corner, c.1 = false → Spec.NearB geod xa ya xb yb c := by
    rintro ⟨e, nn⟩ he
    refine ⟨(true, nn), ?_⟩
    rw [tol, ca, cb]
    dsimp only at he
    subst he
    exact h.common nn
  have first1 : Spec.FirstEdge (Spec.NearA geod xa ya xb yb) .E := by
    refine ⟨fun c hc => nearE c hc, fun e' he hn' => ?_⟩
    cases e' <;> first | exact absurd he (by decide) | skip
    obtain ⟨nn, hap⟩ := h.apart
    obtain ⟨c', hc'⟩ := hn' (false, nn) rfl
    rw [tol, ca, cb] at hc'
    exact absurd ((hap c').symm.trans hc') (by decide)
  have first2 : Spec.FirstEdge (Spec.NearB geod xa ya xb yb) .W :=
    ⟨fun c hc => nearW c (by simpa [Spec.onEdge] using hc), fun e' he _ => by cases e' <;> exact absurd he (by decide)⟩
  obtain ⟨M, hM, hMa, hMb⟩ := C41_accepts geod xa ya xb yb .E .W ⟨by omega, by omega, by omega, by omega⟩
    ⟨by omega, by omega, by omega, by omega⟩ (by rw [tol]; exact h.finite) first1 first2 trivial
    ⟨by show 2 ≤ xa.cols; omega, by show xa.cols ≤ xb.cols; omega, by show 2 ≤ xb.rows; omega⟩
  obtain ⟨a', c, hadd, hst, hj⟩ := stitch_accepts geod strict _ _ ma n mb n hma hn a b xa ya xb yb M ra rb hxa hya hxb hyb hM
    (by rw [hMa, hMb]; rfl)
  rw [hMa] at hst hj
  obtain ⟨bytes, hmain, -, hread⟩ := (C67_sgstitch geod strict _ _ ma n mb n old).2 c _ _ hst
  obtain ⟨c', hrc, hsame⟩ := hread true
  refine ⟨bytes, c', ga, gb, hmain, hrc, ka, kb, ?_⟩
  obtain ⟨-, a0, hra0, hkeep⟩ := C43_addfringe_keeps geod strict _ _ ma n mb n _ _ a' hadd
  rw [ra] at hra0; cases hra0
  -- one field
  have main : ∀ (f : Field) (A A' B B' : Mat F), (f = .XG ∨ f = .YG) → (∀ k, Spec.nrows f k = k + 1) → (∀ k, Spec.ncols f k = k + 1) →
      ga f = .arr A → a f = .arr A' → A.Same A' → gb f = .arr B → b f = .arr B' → B.Same B' →
      A'.rows = ma + 1 → A'.cols = n + 1 → B'.rows = mb + 1 → B'.cols = n + 1 →
      ∃ A B C, ga f = .arr A ∧ gb f = .arr B ∧ c' f = .arr C ∧
        (∀ i j, i ≤ ma → j ≤ n → C.get i j = A.get i j) ∧ (∀ i j, 1 ≤ i → i ≤ mb → j ≤ n → C.get (ma + i) j = B.get i j) := by
    intro f A A' B B' hf hnr hnc hA hA' sA hB hB' sB r1 c1 r2 c2
    obtain ⟨A0, R, e1, e2, hv⟩ := hkeep f
    rw [hA'] at e1; cases e1
    obtain ⟨A1, B1, C1, f1, f2, f3, cr, cc, hval⟩ := hj f
    rw [e2] at f1; cases f1
    rw [hB'] at f2; cases f2
    have hs := hsame f
    rw [f3] at hs
    cases hc' : c' f with
    | none_ => rw [hc'] at hs; exact hs.elim
    | absent => rw [hc'] at hs; exact hs.elim
    | arr C =>
      rw [hc'] at hs
      obtain ⟨s1, s2, s3⟩ := hs
      simp only [Spec.joinedSize, hnr, hnc] at cr cc
      refine ⟨A, B, C, hA, hB, rfl, fun i j hi hj' => ?_, fun i j h1 hi hj' => ?_⟩
      · rw [← s3 i j (by omega) (by omega), hval i j (by omega) (by omega)]
        unfold Spec.joinedAt
        dsimp only
        rw [if_pos (by rw [hnr]; omega), hv i j (by rw [hnr]; omega) (by rw [hnc]; omega) (.inr hf),
          sA.2.2 i j (by have := sA.1; omega) (by have := sA.2.1; omega)]
      · rw [← s3 (ma + i) j (by omega) (by omega), hval (ma + i) j (by omega) (by omega)]
        unfold Spec.joinedAt
        dsimp only
        rw [if_neg (by rw [hnr]; omega), show ma + i - ma = i by omega,
          sB.2.2 i j (by have := sB.1; omega) (by have := sB.2.1; omega)]
  rintro f (rfl | rfl)
  · exact main .XG XA xa XB xb (.inl rfl) (fun _ => rfl) (fun _ => rfl) hxa0 hxa ssxa hxb0 hxb ssxb a1 a2 b1 b2
  · exact main .YG YA ya YB yb (.inr rfl) (fun _ => rfl) (fun _ => rfl) hya0 hya ssya hyb0 hyb ssyb a3 a4 b3 b4

/-! ### A concrete case: 2 x 1 cells from (10,20) to (50,10) -/

namespace ExPipe

def grid : Py (Grid Toy × Int × Int) := mkgrid Toy.geod 10 20 50 10 (2 : Nat) (1 : Nat)
def field (f : Field) : Mat Toy :=
  match grid with
  | .ok (g, _) => match g f with
    | .arr m => m
    | _ => ⟨0, 0, fun _ _ => 0⟩
  | .error _ => ⟨0, 0, fun _ _ => 0⟩
def files : Files Toy where
  bin n := if n = "a.mitgrid" then some (mkgridMain Toy.geod 10 20 50 10 (2 : Nat) (1 : Nat) []).1 else none
  csv _ := .error .ioError

theorem grid_ok : ∃ g, grid = .ok (g, ((2 : Nat) : Int), ((1 : Nat) : Int)) ∧ g .XG = .arr (field .XG) ∧ g .YG = .arr (field .YG) := by
  obtain ⟨g, e, hc⟩ := C27_mkgrid_sizes Toy.geod 10 20 50 10 2 1 (by decide) (by decide)
  refine ⟨g, e, ?_, ?_⟩
  all_goals
    unfold field grid
    rw [e]
    dsimp only
  · obtain ⟨m, h, -⟩ := hc .XG; rw [h]
  · obtain ⟨m, h, -⟩ := hc .YG; rw [h]

set_option maxRecDepth 40000 in
theorem nw : Spec.UniqueNearest Toy.geod 10 20 (.ofF (field .XG), .ofF (field .YG)) 0 1 := by
  refine ⟨by decide +kernel, by decide +kernel, by decide +kernel, ?_⟩
  have h : ∀ i, i < (NArr.ofF (field .XG)).mat.rows → ∀ j, j < (NArr.ofF (field .XG)).mat.cols → (i, j) ≠ (0, 1) →
    PyFloat.lt (Spec.dist Toy.geod 10 20 (field .XG) (field .YG) 0 1) (Spec.dist Toy.geod 10 20 (field .XG) (field .YG) i j) = true := by
    decide +kernel
  exact fun i j hi hj hne => h i hi j hj hne

set_option maxRecDepth 40000 in
theorem se : Spec.UniqueNearest Toy.geod 50 10 (.ofF (field .XG), .ofF (field .YG)) 2 0 := by
  refine ⟨by decide +kernel, by decide +kernel, by decide +kernel, ?_⟩
  have h : ∀ i, i < (NArr.ofF (field .XG)).mat.rows → ∀ j, j < (NArr.ofF (field .XG)).mat.cols → (i, j) ≠ (2, 0) →
    PyFloat.lt (Spec.dist Toy.geod 50 10 (field .XG) (field .YG) 2 0) (Spec.dist Toy.geod 50 10 (field .XG) (field .YG) i j) = true := by
    decide +kernel
  exact fun i j hi hj hne => h i hi j hj hne

example : (field .XG).toList = [10, 10, 30, 30, 50, 50] := by decide +kernel

/-- C77 applies, and so does C76 -/
example : ∃ bytes g' X', regridMain Toy.geod files 4 (Spec.cliArgs true "a.mitgrid" 2 1 10 20 50 10 1 1) [] = some (bytes, .ok ()) ∧
    readMitgrid bytes 2 1 true = .ok g' ∧ g' .XG = .arr X' ∧ (field .XG).Same X' := by
  obtain ⟨g, e, hx, hy⟩ := grid_ok
  obtain ⟨b, g', X', Y', h1, h2, h3, -, h5, -⟩ := C77_mkgrid_then_regrid Toy.geod 10 20 50 10 2 1 (by decide) (by decide) [] [] g _ _ e
    hx hy nw se files "a.mitgrid" (by decide) (by unfold files; simp) true 4 (by decide)
  exact ⟨b, g', X', h1, h2, h3, h5⟩

/-- without the file: nothing is written -/
example : regridMain Toy.geod ⟨fun _ => none, fun _ => .error .ioError⟩ 4 (Spec.cliArgs true "a.mitgrid" 2 1 10 20 50 10 1 1) [1, 2]
    = some ([1, 2], .error .ioError) :=
  (C76_sgregrid Toy.geod _ 4 (Spec.cliArgs true "a.mitgrid" 2 1 10 20 50 10 1 1) rfl [1, 2]).2.1 none _ rfl

/-- C78: boxes 10..50 and 50..80 (tolerance 0 in these integers), 2 and 3 cells by 1 -/
theorem sideBySide : Spec.SideBySide Toy.geod 10 50 80 20 10 :=
  ⟨by decide +kernel, by decide +kernel, ⟨true, by rintro ⟨a, b⟩; cases a <;> cases b <;> decide +kernel⟩⟩
example : (stitchMain (F := Toy) Toy.geod true (mkgridMain Toy.geod 10 20 50 10 (2 : Nat) (1 : Nat) []).1 2 1
    (mkgridMain Toy.geod 50 20 80 10 (3 : Nat) (1 : Nat) []).1 3 1 []).2 = .ok () := by
  obtain ⟨bytes, c, a, b, h, -⟩ := C78_adjacent_tiles Toy.geod 10 50 80 20 10 2 3 1 (by decide) (by decide) (by decide) sideBySide
    [] [] [] true
  rw [h]

/-- C66: the file of a 1 x 1 tile east of `exFile 0 0`, upside down. -/
def upsideDown : List Byte :=
  (Mgf.names.flatMap fun f => [(0, 0), (1, 0), (0, 1), (1, 1)].flatMap fun p : Nat × Nat =>
    beBytes (F64.toBits (match f with
      | .XG => Toy.ofInt (10 + 10 * p.1)
      | .YG => Toy.ofInt (10 - 10 * p.2)
      | .XC | .YC | .DXF | .DYF | .RAC => if p = (0, 0) then 7 else 0
      | .DXG => if p.1 = 0 then 7 else 0
      | .DYG => if p.2 = 0 then 7 else 0
      | _ => 0)))
set_option maxRecDepth 40000 in
/-- The hypotheses of C66 hold, and in the stitched grid latitudes run from 0 to 10 up to the seam and from 10 to 0 beyond it. -/
example : (do
      let a ← (readMitgrid (exFile 0 0) 1 1 true : Py (Grid Toy))
      let b ← (readMitgrid upsideDown 1 1 true : Py (Grid Toy))
      return [(exGet a .YG 1 0, exGet b .YG 0 1), (exGet a .YG 1 1, exGet b .YG 0 0)]).toOption =
      some [((0 : Toy), 0), (10, 10)] ∧
    exView (stitch Toy.geod true (exFile 0 0) 1 1 upsideDown 1 1)
      [(.XG, 1, 0), (.XG, 2, 0), (.YG, 0, 0), (.YG, 0, 1), (.YG, 1, 0), (.YG, 1, 1), (.YG, 2, 0), (.YG, 2, 1)] =
    some (2, 1, [10, 20, 0, 10, 0, 10, 10, 0]) := by decide +kernel

end ExPipe

end SG
