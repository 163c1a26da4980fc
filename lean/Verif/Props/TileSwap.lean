import Verif.Props.TileOrder
/-! # C134: tiles accepted in one order are accepted in the other -/

set_option linter.unusedSectionVars false
namespace SG
variable {F : Type} [PyFloat F]

/-- Every two corners of the tiles are within the tolerance in both orders or in neither.  (Exchanging the tiles exchanges the arguments of `geod.inv` and
changes the order in which the four diagonals are added.) -/
def Spec.SameNear (geod : Geod F) (aXG aYG bXG bYG : Mat F) : Prop :=
  ∀ c c', PyFloat.le (Spec.cdist geod (Spec.cornerPt aXG aYG c) (Spec.cornerPt bXG bYG c')) (Spec.tolerance geod aXG aYG bXG bYG) =
    PyFloat.le (Spec.cdist geod (Spec.cornerPt bXG bYG c') (Spec.cornerPt aXG aYG c)) (Spec.tolerance geod bXG bYG aXG aYG)

theorem firstEdge_unique (p : Spec.Corner → Prop) (e e' : Edge) (h : Spec.FirstEdge p e) (h' : Spec.FirstEdge p e') : e = e' := by
  obtain ⟨h1, h2⟩ := h
  obtain ⟨h1', h2'⟩ := h'
  rcases Nat.lt_trichotomy (Spec.rank e) (Spec.rank e') with hh | hh | hh
  · exact absurd h1 (h2' e hh)
  · cases e <;> cases e' <;> first | rfl | exact absurd hh (by decide)
  · exact absurd h1' (h2 e' hh)

theorem opposite_swap {e e' : Edge} (h : Spec.Opposite (e, e')) : Spec.Opposite (e', e) := by
  cases e <;> cases e' <;> simp only [Spec.Opposite] at h ⊢

/-- **C134** (`addfringe`): let `addfringe` accept the tiles A, B, matching side `ea` of A to side `eb` of B.  With the tiles exchanged it matches the same
sides if they have the same number of cells; if not, it raises. -/
theorem C134_addfringe_swapped [F64 F] [ZeroLaw F] [FloatTotal F] (geod : Geod F) (strict : Bool) (fa fb : List Byte) (nia nja nib njb : Nat)
    (ea eb : Edge) (x : Grid F) (h : addfringe geod strict fa nia nja fb nib njb = .ok (ea, eb, x))
    (a b : Grid F) (aXG aYG bXG bYG : Mat F) (hra : readMitgrid fa nia nja strict = .ok a) (hrb : readMitgrid fb nib njb strict = .ok b)
    (hax : a .XG = .arr aXG) (hay : a .YG = .arr aYG) (hbx : b .XG = .arr bXG) (hby : b .YG = .arr bYG)
    (fin : PyFloat.le PyFloat.inf (Spec.tolerance geod aXG aYG bXG bYG) = false)
    (fin' : PyFloat.le PyFloat.inf (Spec.tolerance geod bXG bYG aXG aYG) = false) (same : Spec.SameNear geod aXG aYG bXG bYG) :
    (Spec.edgeCells nia nja ea = Spec.edgeCells nib njb eb → ∃ y, addfringe geod strict fb nib njb fa nia nja = .ok (eb, ea, y)) ∧
    (Spec.edgeCells nia nja ea ≠ Spec.edgeCells nib njb eb → ∃ e, (addfringe geod strict fb nib njb fa nia nja : Py (Edge × Edge × Grid F)) = .error e) := by
  obtain ⟨p1, p2, a', b', A, B, M, wrap, hra', hrb', hA, hB, hm, rfl, rfl, -⟩ := addfringe_success geod strict fa fb nia nja nib njb ea eb x h
  rw [hra] at hra'; cases hra'
  rw [hrb] at hrb'; cases hrb'
  have e1 := hA .XG; rw [hax] at e1; injection e1 with e1
  have e2 := hA .YG; rw [hay] at e2; injection e2 with e2
  have e3 := hB .XG; rw [hbx] at e3; injection e3 with e3
  have e4 := hB .YG; rw [hby] at e4; injection e4 with e4
  rw [← e1, ← e2, ← e3, ← e4] at hm
  have ca := read_complete fa nia nja strict a hra
  have cb := read_complete fb nib njb strict b hrb
  have shape : ∀ (g : Grid F) (m n : Nat) (f : Field) (X : Mat F), Spec.Complete g m n → g f = .arr X →
      X.rows = Spec.nrows f m ∧ X.cols = Spec.ncols f n := by
    intro g m n f X hc hx
    obtain ⟨X', e, r⟩ := hc f
    rw [hx] at e
    cases e
    exact r
  obtain ⟨x1, x2⟩ := shape a nia nja _ _ ca hax
  obtain ⟨y1, y2⟩ := shape a nia nja _ _ ca hay
  obtain ⟨u1, u2⟩ := shape b nib njb _ _ cb hbx
  obtain ⟨v1, v2⟩ := shape b nib njb _ _ cb hby
  obtain ⟨ta, tb⟩ := matchedges_tiles geod _ _ _ _ M ⟨y1.trans x1.symm, y2.trans x2.symm⟩ ⟨v1.trans u1.symm, v2.trans u2.symm⟩ hm
  have ho := (C40_only_opposite geod _ _ _ _ M hm).1
  obtain ⟨first1, first2⟩ := C41_reported_edges geod aXG aYG bXG bYG M ⟨ta.1, ta.2.1⟩ ⟨tb.1, tb.2.1⟩ fin hm
  have nb : ∀ c, Spec.NearB geod aXG aYG bXG bYG c ↔ Spec.NearA geod bXG bYG aXG aYG c := fun c =>
    exists_congr fun c' => by rw [same c' c]
  have na : ∀ c, Spec.NearA geod aXG aYG bXG bYG c ↔ Spec.NearB geod bXG bYG aXG aYG c := fun c =>
    exists_congr fun c' => by rw [same c c']
  have f1 := (FirstEdge_congr na M.aEdge).1 first1
  have f2 := (FirstEdge_congr nb M.bEdge).1 first2
  have al := along_cells aXG nia nja x1 x2 M.aEdge
  have bl := along_cells bXG nib njb u1 u2 M.bEdge
  have apos : 0 < Spec.edgeCells nia nja M.aEdge := by cases M.aEdge <;> simp only [Spec.edgeCells] <;> assumption
  have adeep : 2 ≤ Spec.across aXG M.aEdge := by
    simp only [Spec.nrows, Spec.ncols] at x1 x2
    cases M.aEdge <;> simp only [Spec.across] <;> omega
  have deep := (addfringe_fits geod strict fa fb nia nja nib njb _ _ x h).2
  refine ⟨fun eq => ?_, fun ne => ?_⟩
  · obtain ⟨M', hm', ea', eb'⟩ := C41_accepts geod bXG bYG aXG aYG M.bEdge M.aEdge tb ta fin' f2 f1 (opposite_swap ho) ⟨by omega, by omega, adeep⟩
    have q : 0 < nib ∧ 0 < njb := by
      have := matchedges_shape geod _ _ _ _ M hm
      obtain ⟨-, -, -, -, hl⟩ := this
      obtain ⟨-, dp⟩ := edgeLine_fits geod _ _ _ _ _ _ _ (by omega) hl
      simp only [Spec.nrows, Spec.ncols] at u1 u2
      revert dp eq apos
      cases M.bEdge <;> simp only [Spec.across, Spec.edgeCells] <;> omega
    obtain ⟨y, hy⟩ := C43_addfringe_accepts geod strict fb fa nib njb nia nja q.1 q.2 b a bXG bYG aXG aYG M' hrb hra hbx hby hax hay hm'
    rw [ea', eb'] at hy
    exact ⟨y, hy⟩
  · cases hs : (addfringe geod strict fb nib njb fa nia nja : Py (Edge × Edge × Grid F)) with
    | error e => exact ⟨e, rfl⟩
    | ok r =>
      exfalso
      obtain ⟨eb', ea', y⟩ := r
      have fits' := (addfringe_fits geod strict fb fa nib njb nia nja _ _ y hs).2
      obtain ⟨-, -, b', a', B', A', M', wrap', hrb', hra', hB', hA', hm', rfl, rfl, -⟩ := addfringe_success geod strict fb fa nib njb nia nja _ _ y hs
      rw [hra] at hra'; cases hra'
      rw [hrb] at hrb'; cases hrb'
      have e1' := hA' .XG; rw [hax] at e1'; injection e1' with e1'
      have e2' := hA' .YG; rw [hay] at e2'; injection e2' with e2'
      have e3' := hB' .XG; rw [hbx] at e3'; injection e3' with e3'
      have e4' := hB' .YG; rw [hby] at e4'; injection e4' with e4'
      rw [← e1', ← e2', ← e3', ← e4'] at hm'
      obtain ⟨g1, g2⟩ := C41_reported_edges geod bXG bYG aXG aYG M' ⟨tb.1, tb.2.1⟩ ⟨ta.1, ta.2.1⟩ fin' hm'
      rw [firstEdge_unique _ _ _ g1 f2, firstEdge_unique _ _ _ g2 f1] at fits'
      omega

/-- **C134** (`stitch`): tiles that `stitch` accepts in one order it accepts in the other, with the same matching sides and the same sizes. -/
theorem C134_stitch_swapped [F64 F] [ZeroLaw F] [FloatTotal F] (geod : Geod F) (strict : Bool) (fa fb : List Byte) (nia nja nib njb nic njc : Nat)
    (c : Grid F) (h : stitch geod strict fa nia nja fb nib njb = .ok (c, nic, njc))
    (a b : Grid F) (aXG aYG bXG bYG : Mat F) (hra : readMitgrid fa nia nja strict = .ok a) (hrb : readMitgrid fb nib njb strict = .ok b)
    (hax : a .XG = .arr aXG) (hay : a .YG = .arr aYG) (hbx : b .XG = .arr bXG) (hby : b .YG = .arr bYG)
    (fin : PyFloat.le PyFloat.inf (Spec.tolerance geod aXG aYG bXG bYG) = false)
    (fin' : PyFloat.le PyFloat.inf (Spec.tolerance geod bXG bYG aXG aYG) = false) (same : Spec.SameNear geod aXG aYG bXG bYG) :
    ∃ d ea eb x y, stitch geod strict fb nib njb fa nia nja = .ok (d, nic, njc) ∧
      addfringe geod strict fa nia nja fb nib njb = .ok (ea, eb, x) ∧ addfringe geod strict fb nib njb fa nia nja = .ok (eb, ea, y) := by
  obtain ⟨ea, eb, x, b', hx, hrb', ho, hcell, hsz, -⟩ := C46_stitch_content geod strict fa fb nia nja nib njb nic njc c h
  obtain ⟨y, hy⟩ := (C134_addfringe_swapped geod strict fa fb nia nja nib njb ea eb x hx a b aXG aYG bXG bYG hra hrb hax hay hbx hby fin fin' same).1 hcell
  obtain ⟨q1, q2, b', a', B', A', M', wrap', hrb', hra', hB', hA', hm', e1, e2, -, cy, -⟩ := addfringe_success geod strict fb fa nib njb nia nja _ _ y hy
  rw [hra] at hra'; cases hra'
  have ca := read_complete fa nia nja strict a hra
  obtain ⟨d, hd, -⟩ := (join_spec eb ea (opposite_swap ho) y a nib njb nia nja cy ca).1 hcell.symm
  have size : Spec.joinedSize nib njb nia nja eb = (nic, njc) := by
    rw [hsz]
    cases ea <;> cases eb <;> simp only [Spec.Opposite] at ho <;> simp only [Spec.joinedSize, Spec.edgeCells] at hcell ⊢ <;> rw [Prod.mk.injEq] <;> omega
  refine ⟨d, ea, eb, x, y, ?_, hx, hy⟩
  unfold stitch
  rw [hy, Py.ok_bind]
  dsimp only
  rw [hra, Py.ok_bind, hd, size]

/-- The longitudes and latitudes of the corners of the tile of `exFile x y`. -/
def exCorners (x y : Int) : Mat Toy × Mat Toy := (⟨2, 2, fun i _ => Toy.ofInt (x + 10 * i)⟩, ⟨2, 2, fun _ j => Toy.ofInt (y + 10 * j)⟩)

/-- The tiles at 0 and at 10: the tolerances are finite, and the same corners are near in both orders. -/
example : PyFloat.le PyFloat.inf (Spec.tolerance Toy.geod (exCorners 0 0).1 (exCorners 0 0).2 (exCorners 10 0).1 (exCorners 10 0).2) = false ∧
    PyFloat.le PyFloat.inf (Spec.tolerance Toy.geod (exCorners 10 0).1 (exCorners 10 0).2 (exCorners 0 0).1 (exCorners 0 0).2) = false ∧
    Spec.SameNear Toy.geod (exCorners 0 0).1 (exCorners 0 0).2 (exCorners 10 0).1 (exCorners 10 0).2 := by
  refine ⟨by decide +kernel, by decide +kernel, ?_⟩
  rintro ⟨c1, c2⟩ ⟨d1, d2⟩
  cases c1 <;> cases c2 <;> cases d1 <;> cases d2 <;> decide +kernel

/-- Their files hold these corners. -/
example : ∃ a : Grid Toy, readMitgrid (exFile 0 0) 1 1 true = .ok a ∧ ∃ X Y, a .XG = .arr X ∧ a .YG = .arr Y ∧
    ∀ i < 2, ∀ j < 2, X.get i j = (exCorners 0 0).1.get i j ∧ Y.get i j = (exCorners 0 0).2.get i j :=
  ⟨_, rfl, _, _, rfl, rfl, by decide +kernel⟩

/-- A tile of 1 by 2 cells on the eastern side of the tile at 0: the cells are half as high. -/
def exFine : List Byte :=
  (Mgf.names.flatMap fun f => [(0, 0), (1, 0), (0, 1), (1, 1), (0, 2), (1, 2)].flatMap fun p : Nat × Nat =>
    beBytes (F64.toBits (match f with
      | .XG => Toy.ofInt (10 + 10 * p.1)
      | .YG => Toy.ofInt (5 * p.2)
      | _ => 0)))

set_option maxRecDepth 40000 in
/-- `addfringe` takes the coarse tile first but not the fine one. -/
example : (addfringe Toy.geod false (exFile 0 0) 1 1 exFine 1 2).toOption.map (fun r => (r.1, r.2.1)) = some (.E, .W) ∧
    (addfringe Toy.geod false exFine 1 2 (exFile 0 0) 1 1).toOption.map (fun r => (r.1, r.2.1)) = none := by decide +kernel

end SG
