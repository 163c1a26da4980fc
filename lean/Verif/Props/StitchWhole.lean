import Verif.Props.AnySide
import Verif.Props.WholeGrid
/-! # C126: every entry of the 16 arrays of `stitch` -/

set_option linter.unusedSectionVars false
namespace SG
variable {F : Type} [PyFloat F]

/-- Array `f` of a tile after `addfringe`: entries that are zero are replaced by those computed from the tile's own corner points. -/
def Spec.refilled (geod : Geod F) (wrap : Bool) (X Y : Mat F) (m n : Nat) (f : Field) (A : Mat F) : Mat F :=
  ⟨A.rows, A.cols, fun i j => if PyFloat.isZero (A.get i j) then
    (Spec.halfTile geod wrap X Y m n).entry geod.inv (Spec.quad geod ((Spec.halfTile geod wrap X Y m n).usePlanar geod.inv)) f i j else A.get i j⟩

/-- Indices into the joined array stay inside the tile they point to. -/
theorem joinedAt_congr (nia nja nib njb : Nat) (ea eb : Edge) (ho : Spec.Opposite (ea, eb))
    (hc : Spec.edgeCells nia nja ea = Spec.edgeCells nib njb eb) (f : Field) (A A' B B' : Mat F) (i j : Nat)
    (hi : i < Spec.nrows f (Spec.joinedSize nia nja nib njb ea).1) (hj : j < Spec.ncols f (Spec.joinedSize nia nja nib njb ea).2)
    (vA : ∀ i j, i < Spec.nrows f nia → j < Spec.ncols f nja → A.get i j = A'.get i j)
    (vB : ∀ i j, i < Spec.nrows f nib → j < Spec.ncols f njb → B.get i j = B'.get i j) :
    Spec.joinedAt nia nja nib njb ea f A B i j = Spec.joinedAt nia nja nib njb ea f A' B' i j := by
  obtain ⟨d, hr⟩ : ∃ d, ∀ k, Spec.nrows f k = k + d := ⟨Spec.nrows f 0, fun k => by cases f <;> simp [Spec.nrows]⟩
  obtain ⟨e, hc'⟩ : ∃ e, ∀ k, Spec.ncols f k = k + e := ⟨Spec.ncols f 0, fun k => by cases f <;> simp [Spec.ncols]⟩
  simp only [hr, hc'] at hi hj vA vB
  unfold Spec.joinedAt
  cases ea <;> cases eb <;> simp only [Spec.Opposite] at ho <;> simp only [Spec.joinedSize, Spec.edgeCells] at hi hj hc <;>
    simp only [hr, hc'] <;> split <;> first
      | exact vA _ _ (by omega) (by omega)
      | exact vB _ _ (by omega) (by omega)

/-- **C126**: the result of `stitch` as one formula.  Each entry is that of tile B, or that of tile A unless it is zero; a zero of tile A becomes the
value computed from the corner points of tile A. -/
theorem C126_stitch [F64 F] [ZeroLaw F] [FloatOrder F] (geod : Geod F) (strict : Bool) (fa fb : List Byte)
    (nia nja nib njb nic njc : Nat) (c : Grid F) (h : stitch geod strict fa nia nja fb nib njb = .ok (c, nic, njc)) :
    ∃ (a b : Grid F) (aXG aYG bXG bYG : Mat F) (M : Matched F) (wrap : Bool), readMitgrid fa nia nja strict = .ok a ∧
      readMitgrid fb nib njb strict = .ok b ∧ a .XG = .arr aXG ∧ a .YG = .arr aYG ∧ b .XG = .arr bXG ∧ b .YG = .arr bYG ∧
      matchedges geod aXG aYG bXG bYG = .ok M ∧ (nic, njc) = Spec.joinedSize nia nja nib njb M.aEdge ∧
      (wrap = true ↔ Spec.NonNeg aXG ∧ ∀ k, k < M.edgeXg.len → PyFloat.lt (M.edgeXg.get k) Arith.zero = false) ∧
      ∀ f, ∃ A B C, a f = .arr A ∧ b f = .arr B ∧ c f = .arr C ∧ C.rows = Spec.nrows f nic ∧ C.cols = Spec.ncols f njc ∧
        ∀ i j, i < Spec.nrows f nic → j < Spec.ncols f njc →
          C.get i j = Spec.joinedAt nia nja nib njb M.aEdge f (Spec.refilled geod wrap aXG aYG nia nja f A) B i j := by
  obtain ⟨ea, eb, a', b, hadd, hrb, ho, hcell, hsz, hj⟩ := C46_stitch_content geod strict fa fb nia nja nib njb nic njc c h
  obtain ⟨-, a, hra, hkeep⟩ := C43_addfringe_keeps geod strict fa fb nia nja nib njb ea eb a' hadd
  obtain ⟨a1, b1, aXG, aYG, bXG, bYG, M, wrap, ra, rb, x1, y1, x2, y2, hM, rfl, rfl, hw, hz⟩ :=
    C44_zero_entries_recomputed_partial geod strict fa fb nia nja nib njb ea eb a' hadd
  rw [hra] at ra; cases ra
  rw [hrb] at rb; cases rb
  refine ⟨a, b, aXG, aYG, bXG, bYG, M, wrap, hra, hrb, x1, y1, x2, y2, hM, hsz, hw, fun f => ?_⟩
  obtain ⟨A, R, e1, e2, v1⟩ := hkeep f
  obtain ⟨A2, R2, e3, e4, v2⟩ := hz f
  rw [e1] at e3; cases e3
  rw [e2] at e4; cases e4
  obtain ⟨R3, B, C, e5, e6, e7, r, cc, v3⟩ := hj f
  rw [e2] at e5; cases e5
  have s1 : nic = (Spec.joinedSize nia nja nib njb M.aEdge).1 := congrArg Prod.fst hsz
  have s2 : njc = (Spec.joinedSize nia nja nib njb M.aEdge).2 := congrArg Prod.snd hsz
  subst s1 s2
  refine ⟨A, B, C, e1, e6, e7, r, cc, fun i j hi hj' => ?_⟩
  rw [v3 i j (by omega) (by omega)]
  refine joinedAt_congr nia nja nib njb M.aEdge M.bEdge ho hcell f _ _ _ _ i j hi hj' (fun i j hi hj => ?_) fun _ _ _ _ => rfl
  show R.get i j = if PyFloat.isZero (A.get i j) then _ else A.get i j
  split
  · rename_i hzz; exact v2 i j hi hj hzz
  · rename_i hzz; exact v1 i j hi hj (.inl (by simpa using hzz))

theorem mkgrid_read [F64 F] [LawfulF64 F] [ZeroLaw F] [FloatOrder F] (geod : Geod F) (lon1 lat1 lon2 lat2 : F) (m n : Nat) (hm : 1 ≤ m) (hn : 1 ≤ n)
    (old : List Byte) (strict : Bool) :
    ∃ g g', mkgrid geod lon1 lat1 lon2 lat2 m n = .ok (g, (m : Int), (n : Int)) ∧
      readMitgrid (mkgridMain geod lon1 lat1 lon2 lat2 m n old).1 m n strict = .ok g' ∧
      ∀ f, ∃ A A', g f = .arr A ∧ g' f = .arr A' ∧ A.rows = Spec.nrows f m ∧ A.cols = Spec.ncols f n ∧ A.Same A' ∧
        ∀ i j, i < Spec.nrows f m → j < Spec.ncols f n → Spec.Undefined f m n i j → A.get i j = Arith.zero := by
  obtain ⟨g, hg, hc⟩ := C27_mkgrid_sizes geod lon1 lat1 lon2 lat2 m n hm hn
  obtain ⟨bytes, g', hw, hr, hs⟩ := C01_round_trip ZeroLaw.isZero_zero old g m n strict hc
  have hmain : (mkgridMain geod lon1 lat1 lon2 lat2 m n old).1 = bytes := by
    unfold mkgridMain; rw [hg]; exact congrArg Prod.fst hw
  rw [hmain]
  refine ⟨g, g', hg, hr, fun f => ?_⟩
  obtain ⟨A, e1, r, c⟩ := hc f
  have := hs f
  rw [e1] at this
  cases h1 : g' f with
  | none_ => rw [h1] at this; exact this.elim
  | absent => rw [h1] at this; exact this.elim
  | arr A' =>
    rw [h1] at this
    refine ⟨A, A', e1, rfl, r, c, this, fun i j hi hj hu => ?_⟩
    obtain ⟨g2, hg2, east, -, v⟩ := C124_mkgrid geod lon1 lat1 lon2 lat2 m n hm hn
    rw [hg] at hg2; cases hg2
    obtain ⟨A2, e2, -, -, w⟩ := v f
    rw [e1] at e2; cases e2
    rw [Nat.one_mul, Nat.one_mul] at w
    rw [w i j hi hj]
    refine entry_undefined _ _ _ f i j ?_
    show Spec.Undefined f (1 * m) (1 * n) i j
    rwa [Nat.one_mul, Nat.one_mul]

/-- **C126** for tiles of `sgmkgrid` whose boxes share a side, with equally many cells along it: all 16 arrays of the file that `sgstitch` writes are those
of the two tiles put side by side.  The boundary terms of the first tile are zero, also along the common side, where both its neighbours are known. -/
theorem C126_adjacent [F64 F] [FloatTotal F] [LawfulF64 F] [ZeroLaw F] (geod : Geod F) (a1 a2 a3 a4 b1 b2 b3 b4 : F) (ma na mb nb : Nat)
    (hma : 1 ≤ ma) (hna : 1 ≤ na) (hmb : 1 ≤ mb) (hnb : 1 ≤ nb) (ae be : Edge)
    (h : Spec.ShareSide geod (Spec.boxCorner a1 a2 a3 a4) (Spec.boxCorner b1 b2 b3 b4) ae be)
    (hcells : Spec.edgeCells ma na ae = Spec.edgeCells mb nb be) (olda oldb old : List Byte) (strict : Bool) :
    ∃ bytes c a b, stitchMain (F := F) geod strict (mkgridMain geod a1 a2 a3 a4 ma na olda).1 ma na
        (mkgridMain geod b1 b2 b3 b4 mb nb oldb).1 mb nb old = (bytes, .ok ()) ∧
      readMitgrid bytes (Spec.joinedSize ma na mb nb ae).1 (Spec.joinedSize ma na mb nb ae).2 true = .ok c ∧
      mkgrid geod a1 a2 a3 a4 ma na = .ok (a, (ma : Int), (na : Int)) ∧
      mkgrid geod b1 b2 b3 b4 mb nb = .ok (b, (mb : Int), (nb : Int)) ∧
      ∀ f, ∃ A B C R, a f = .arr A ∧ b f = .arr B ∧ c f = .arr C ∧
        C.rows = Spec.nrows f (Spec.joinedSize ma na mb nb ae).1 ∧ C.cols = Spec.ncols f (Spec.joinedSize ma na mb nb ae).2 ∧
        (∀ i j, i < C.rows → j < C.cols → C.get i j = Spec.joinedAt ma na mb nb ae f R B i j) ∧
        ∀ i j, i < Spec.nrows f ma → j < Spec.ncols f na →
          (PyFloat.isZero (A.get i j) = false ∨ f = .XG ∨ f = .YG → R.get i j = A.get i j) ∧
          (Spec.Undefined f ma na i j → R.get i j = Arith.zero) := by
  obtain ⟨ga, a, ka, ra, va⟩ := mkgrid_read geod a1 a2 a3 a4 ma na hma hna olda strict
  obtain ⟨gb, b, kb, rb, vb⟩ := mkgrid_read geod b1 b2 b3 b4 mb nb hmb hnb oldb strict
  obtain ⟨b', a', c, rb', hadd, hst, hj⟩ := any_side_core geod a1 a2 a3 a4 b1 b2 b3 b4 ma na mb nb hma hna hmb hnb ae be h hcells olda oldb strict
  rw [rb] at rb'; cases rb'
  obtain ⟨bytes, hmain, -, hread⟩ := (C67_sgstitch geod strict _ _ ma na mb nb old).2 c _ _ hst
  obtain ⟨c', hrc, hsame⟩ := hread true
  refine ⟨bytes, c', ga, gb, hmain, hrc, ka, kb, fun f => ?_⟩
  obtain ⟨-, a0, hra0, hkeep⟩ := C43_addfringe_keeps geod strict _ _ ma na mb nb _ _ a' hadd
  rw [ra] at hra0; cases hra0
  obtain ⟨a0, hra0, hzero⟩ := C44_boundary_terms_stay_zero geod strict _ _ ma na mb nb _ _ a' hadd
  rw [ra] at hra0; cases hra0
  obtain ⟨A, A', eA, eA', rA, cA, sA, uA⟩ := va f
  obtain ⟨B, B', eB, eB', rB, cB, sB, -⟩ := vb f
  obtain ⟨A0, R, e1, e2, keep⟩ := hkeep f
  rw [eA'] at e1; cases e1
  obtain ⟨A0, R0, e1, e3, zero⟩ := hzero f
  rw [eA'] at e1; cases e1
  rw [e2] at e3; cases e3
  obtain ⟨R0, B0, C1, e3, e4, e5, rC, cC, val⟩ := hj f
  rw [e2] at e3; cases e3
  rw [eB'] at e4; cases e4
  have hs := hsame f
  rw [e5] at hs
  cases hc' : c' f with
  | none_ => rw [hc'] at hs; exact hs.elim
  | absent => rw [hc'] at hs; exact hs.elim
  | arr C =>
    rw [hc'] at hs
    obtain ⟨s1, s2, s3⟩ := hs
    refine ⟨A, B, C, R, eA, eB, rfl, by omega, by omega, fun i j hi hj' => ?_, fun i j hi hj' => ⟨fun hk => ?_, fun hu => ?_⟩⟩
    · rw [← s3 i j (by omega) (by omega), val i j (by omega) (by omega)]
      exact joinedAt_congr ma na mb nb ae be h.opposite hcells f _ _ _ _ i j (by omega) (by omega) (fun _ _ _ _ => rfl)
        fun i j hi hj => (sB.2.2 i j (by omega) (by omega)).symm
    · have e := sA.2.2 i j (by omega) (by omega)
      rw [e] at hk ⊢
      exact keep i j hi hj' hk
    · refine zero i j hi hj' hu ?_
      rw [← sA.2.2 i j (by omega) (by omega), uA i j hi hj' hu]
      exact ZeroLaw.isZero_zero

/-- The tiles 10..50 by 10..20 and 10..50 by 20..30 are stitched to a grid of 2 by 4 cells. -/
example : ∃ c : Grid Toy, stitch Toy.geod true (mkgridMain Toy.geod 10 20 50 10 (2 : Nat) (1 : Nat) []).1 2 1
    (mkgridMain Toy.geod 10 30 50 20 (2 : Nat) (3 : Nat) []).1 2 3 = .ok (c, 2, 4) := by
  obtain ⟨-, -, c, -, -, h, -⟩ := any_side_core Toy.geod 10 20 50 10 10 30 50 20 2 1 2 3 (by decide) (by decide) (by decide) (by decide) .N .S exNorth
    rfl [] [] true
  exact ⟨c, h⟩

/-- The edges of the first tile are not zero. -/
example : (mkgrid Toy.geod 10 20 50 10 2 1).toOption.map (fun r => match r.1 .DYG with
      | .arr M => PyFloat.isZero (M.get 1 0)
      | _ => true) = some false := by
  decide +kernel

end SG
