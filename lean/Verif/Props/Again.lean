import Verif.Props.StitchWhole
/-! # C129: `addfringe` applied again; C130: terms on an earlier seam -/

set_option linter.unusedSectionVars false
namespace SG
variable {F : Type} [PyFloat F]

/-! ## Results depend on the elements of arrays only -/

theorem Mat.Same.at' {α : Type} {A B : Mat α} (h : A.Same B) : A.at' = B.at' := by
  funext i j
  unfold Mat.at'
  rw [← h.1, ← h.2.1]
  split
  · rename_i hij; rw [h.2.2 i j hij.1 hij.2]
  · rfl

theorem pyIdx_some_lt {n k : Nat} {i : Int} (h : pyIdx n i = some k) : k < n := by
  unfold pyIdx at h
  split at h
  · split at h
    · cases h; omega
    · cases h
  · split at h
    · cases h; omega
    · cases h

theorem Mat.Same.atI {α : Type} {A B : Mat α} (h : A.Same B) : A.atI = B.atI := by
  funext i j
  unfold Mat.atI
  rw [← h.1, ← h.2.1]
  cases e1 : pyIdx A.rows i with
  | none => rfl
  | some i' =>
    cases e2 : pyIdx A.cols j with
    | none => rfl
    | some j' => exact congrArg Except.ok (h.2.2 i' j' (pyIdx_some_lt e1) (pyIdx_some_lt e2))

theorem Mat.Same.sel {α β : Type} {A B : Mat α} (h : A.Same B) (s : Slice) (i : Nat) (k : α → Py β) :
    (A.sel s >>= fun v => v.at' i >>= k) = (B.sel s >>= fun v => v.at' i >>= k) := by
  unfold Mat.sel
  cases s with
  | row r =>
    dsimp only
    rw [← h.1, ← h.2.1]
    cases e : pyIdx A.rows r with
    | none => rfl
    | some r' =>
      show (Vec.at' _ i >>= k) = (Vec.at' _ i >>= k)
      unfold Vec.at'
      dsimp only
      by_cases hi : i < A.cols
      · rw [if_pos hi, if_pos hi, h.2.2 r' i (pyIdx_some_lt e) hi]
      · rw [if_neg hi, if_neg hi]
  | col r =>
    dsimp only
    rw [← h.1, ← h.2.1]
    cases e : pyIdx A.cols r with
    | none => rfl
    | some r' =>
      show (Vec.at' _ i >>= k) = (Vec.at' _ i >>= k)
      unfold Vec.at'
      dsimp only
      by_cases hi : i < A.rows
      · rw [if_pos hi, if_pos hi, h.2.2 i r' hi (pyIdx_some_lt e)]
      · rw [if_neg hi, if_neg hi]

theorem edgeStep_same {ax ay bx by' ax' ay' bx' by'' : Mat F} (h1 : ax.Same ax') (h2 : ay.Same ay') (h3 : bx.Same bx')
    (h4 : by'.Same by'') (sa sb : Slice) (pa pb : Nat → Nat × Nat) :
    edgeStep ax ay bx by' sa sb pa pb = edgeStep ax' ay' bx' by'' sa sb pa pb := by
  funext s i
  unfold edgeStep
  simp only [h1.sel, h2.sel, h3.sel, h4.sel]

/-- `matchedges` gives the same result for arrays with the same elements. -/
theorem matchedges_same (geod : Geod F) {ax ay bx by' ax' ay' bx' by'' : Mat F} (h1 : ax.Same ax') (h2 : ay.Same ay') (h3 : bx.Same bx')
    (h4 : by'.Same by'') : matchedges geod ax ay bx by' = matchedges geod ax' ay' bx' by'' := by
  have hl : ∀ ae be, edgeLine geod ax ay bx by' ae be = edgeLine geod ax' ay' bx' by'' ae be := by
    intro ae be
    unfold edgeLine
    simp only [edgeStep_same h1 h2 h3 h4, h1.1, h1.2.1]
  unfold matchedges
  simp only [cornerDist, h1.atI, h2.atI, h3.atI, h4.atI, hl]

/-- The recomputation gives the same result for arrays with the same elements. -/
theorem refringe_same (geod : Geod F) {ax ay ax' ay' : Mat F} (h1 : ax.Same ax') (h2 : ay.Same ay') (M : Matched F) :
    refringe geod ax ay M = refringe geod ax' ay' M := by
  unfold refringe
  simp only [h1.at', h2.at', h1.1, h1.2.1]

theorem GridSame.arr {g h : Grid F} (hs : Spec.GridSame g h) {f : Field} {A : Mat F} (e : g f = .arr A) :
    ∃ B, h f = .arr B ∧ A.Same B := by
  have := hs f
  rw [e] at this
  cases h1 : h f with
  | none_ => rw [h1] at this; exact this.elim
  | absent => rw [h1] at this; exact this.elim
  | arr B => rw [h1] at this; exact ⟨B, rfl, this⟩

theorem GridSame.complete {g h : Grid F} (hs : Spec.GridSame g h) {m n : Nat} (hc : Spec.Complete g m n) : Spec.Complete h m n := by
  intro f
  obtain ⟨A, e, r, c⟩ := hc f
  obtain ⟨B, e', s⟩ := GridSame.arr hs e
  exact ⟨B, e', by rw [← s.1, r], by rw [← s.2.1, c]⟩

/-- Grids with the same elements are written to the same bytes. -/
theorem write_same [F64 F] {g h : Grid F} (hs : Spec.GridSame g h) {m n : Nat} (hc : Spec.Complete g m n) (old old' : List Byte) :
    writeMitgrid old g m n = writeMitgrid old' h m n := by
  have hz : ∀ x ∈ Mgf.zipped, m + x.2.1 = Spec.nrows x.1 m ∧ n + x.2.2 = Spec.ncols x.1 n := by
    intro x hx
    obtain ⟨-, hr, hc, -, -⟩ := zipped_mem x hx
    exact ⟨hr m, hc n⟩
  have hf : ∀ x ∈ Mgf.zipped, fieldBytes g m n x = fieldBytes h m n x := by
    intro x hx
    obtain ⟨z1, z2⟩ := hz x hx
    obtain ⟨A, e, r, c⟩ := hc x.1
    obtain ⟨B, e', s⟩ := GridSame.arr hs e
    obtain ⟨f, d1, d2⟩ := x
    dsimp only at *
    unfold fieldBytes
    dsimp only
    rw [e, e', z1, z2]
    unfold assignEntry
    dsimp only
    rw [← s.1, ← s.2.1, r, c]
    simp only [true_or, and_self, if_true]
    have : (fun i j => if i < Spec.nrows f m ∧ j < Spec.ncols f n then A.get i j else (Arith.zero : F)) =
        (fun i j => if i < Spec.nrows f m ∧ j < Spec.ncols f n then B.get i j else (Arith.zero : F)) := by
      funext i j
      split
      · rename_i hij; exact s.2.2 i j (by omega) (by omega)
      · rfl
    rw [this]
  have hl : ∀ (l : List (Field × Nat × Nat)), (∀ x ∈ l, x ∈ Mgf.zipped) → ∀ file, writeLoop g m n l file = writeLoop h m n l file := by
    intro l
    induction l with
    | nil => intro _ file; rfl
    | cons x l ih =>
      intro hin file
      unfold writeLoop
      rw [hf x (hin x (by simp))]
      split
      · exact ih (fun y hy => hin y (by simp [hy])) _
      · rfl
  exact hl _ (fun _ h => h) _

/-- The steps of a successful `addfringe`. -/
theorem addfringe_inv [F64 F] [ZeroLaw F] (geod : Geod F) (strict : Bool) (fa fb : List Byte) (nia nja nib njb : Nat)
    (ea eb : Edge) (g : Grid F) (h : addfringe geod strict fa nia nja fb nib njb = .ok (ea, eb, g)) :
    ∃ (a b new : Grid F) (A B N : Field → Mat F) (M : Matched F),
      readMitgrid fa nia nja strict = .ok a ∧ readMitgrid fb nib njb strict = .ok b ∧
      (∀ f, a f = .arr (A f)) ∧ (∀ f, b f = .arr (B f)) ∧ (∀ f, new f = .arr (N f)) ∧
      matchedges geod (A .XG) (A .YG) (B .XG) (B .YG) = .ok M ∧ M.aEdge = ea ∧ M.bEdge = eb ∧
      refringe geod (A .XG) (A .YG) M = .ok new ∧ Spec.Complete a nia nja ∧ Spec.Complete new nia nja ∧
      (∀ f, g f = .arr (mergedMat (A f) (N f))) := by
  unfold addfringe at h
  cases hra : (readMitgrid fa nia nja strict : Py (Grid F)) with
  | error e => rw [hra] at h; cases h
  | ok a =>
    rw [hra, Py.ok_bind] at h
    cases hrb : (readMitgrid fb nib njb strict : Py (Grid F)) with
    | error e => rw [hrb] at h; cases h
    | ok b =>
      rw [hrb, Py.ok_bind] at h
      have ca := read_complete fa nia nja strict a hra
      have cb := read_complete fb nib njb strict b hrb
      obtain ⟨A, hA, sA⟩ := Complete.choose ca
      obtain ⟨B, hB, sB⟩ := Complete.choose cb
      have xa : ∀ f, a.arr f = .ok (A f) := fun f => by unfold Grid.arr; rw [hA]
      have xb : ∀ f, b.arr f = .ok (B f) := fun f => by unfold Grid.arr; rw [hB]
      rw [xa, Py.ok_bind, xa, Py.ok_bind, xb, Py.ok_bind, xb, Py.ok_bind] at h
      cases hm : matchedges geod (A .XG) (A .YG) (B .XG) (B .YG) with
      | error e => rw [hm] at h; cases h
      | ok M =>
        rw [hm, Py.ok_bind] at h
        obtain ⟨_, _, _, hj, _⟩ := matchedges_shape geod _ _ _ _ M hm
        cases hn : refringe geod (A .XG) (A .YG) M with
        | error e => rw [hn] at h; cases h
        | ok new =>
          rw [hn, Py.ok_bind] at h
          obtain ⟨p1, p2, _, wrap, hw, cn, vn⟩ := (refringe_spec geod (A .XG) (A .YG) nia nja M M.aEdge hj
            (sA .XG).1 (sA .XG).2 (sA .YG).1 (sA .YG).2).1 new hn
          obtain ⟨N, hN, sN⟩ := Complete.choose cn
          obtain ⟨g', hg, vg⟩ := mergeAll_spec a new nia nja p1 p2 ca cn
          rw [hg, Py.ok_bind] at h
          cases h
          exact ⟨a, b, new, A, B, N, M, rfl, rfl, hA, hB, hN, hm, rfl, rfl, hn, ca, cn, fun f => vg f _ _ (hA f) (hN f)⟩

/-- `addfringe` on a file holding the result of `addfringe` with the same tile B. -/
theorem addfringe_again [F64 F] [ZeroLaw F] (geod : Geod F) (strict : Bool) (fa fa' fb : List Byte)
    (nia nja nib njb : Nat) (ea eb : Edge) (g g1 : Grid F)
    (h : addfringe geod strict fa nia nja fb nib njb = .ok (ea, eb, g))
    (hr : readMitgrid fa' nia nja strict = .ok g1) (hs : Spec.GridSame g g1) :
    ∃ g2, addfringe geod strict fa' nia nja fb nib njb = .ok (ea, eb, g2) ∧ Spec.GridSame g g2 := by
  obtain ⟨cg, a0, hra0, hkeep⟩ := C43_addfringe_keeps geod strict fa fb nia nja nib njb ea eb g h
  obtain ⟨p1, p2, -⟩ := addfringe_success geod strict fa fb nia nja nib njb ea eb g h
  obtain ⟨a, b, new, A, B, N, M, hra, hrb, hA, hB, hN, hm, e1, e2, hn, ca, cn, hg⟩ :=
    addfringe_inv geod strict fa fb nia nja nib njb ea eb g h
  rw [hra] at hra0; cases hra0
  have c1 := GridSame.complete hs cg
  obtain ⟨G, hG, sG⟩ := Complete.choose c1
  have sm : ∀ f, (mergedMat (A f) (N f)).Same (G f) := fun f => by
    obtain ⟨B', e, s⟩ := GridSame.arr hs (hg f)
    rw [hG] at e; cases e; exact s
  have key : ∀ f, f = .XG ∨ f = .YG → (A f).Same (G f) := by
    intro f hf
    obtain ⟨A', R, k1, k2, k3⟩ := hkeep f
    rw [hA] at k1; cases k1
    rw [hg] at k2; cases k2
    obtain ⟨A', k4, r, c⟩ := ca f
    rw [hA] at k4; cases k4
    refine ⟨by rw [r, (sG f).1], by rw [c, (sG f).2], fun i j hi hj => ?_⟩
    have := k3 i j (by omega) (by omega) (.inr hf)
    rw [← this]
    obtain ⟨N', k5, r', c'⟩ := cn f
    rw [hN] at k5; cases k5
    exact (sm f).2.2 i j (by show i < (N f).rows; omega) (by show j < (N f).cols; omega)
  have xb : ∀ f, b.arr f = .ok (B f) := fun f => by unfold Grid.arr; rw [hB]
  have xg : ∀ f, g1.arr f = .ok (G f) := fun f => by unfold Grid.arr; rw [hG]
  obtain ⟨g2, hg2, v2⟩ := mergeAll_spec g1 new nia nja p1 p2 c1 cn
  refine ⟨g2, ?_, fun f => ?_⟩
  · unfold addfringe
    rw [hr, Py.ok_bind, hrb, Py.ok_bind, xg, Py.ok_bind, xg, Py.ok_bind, xb, Py.ok_bind, xb, Py.ok_bind,
      ← matchedges_same geod (key .XG (.inl rfl)) (key .YG (.inr rfl)) ⟨rfl, rfl, fun _ _ _ _ => rfl⟩ ⟨rfl, rfl, fun _ _ _ _ => rfl⟩, hm, Py.ok_bind,
      ← refringe_same geod (key .XG (.inl rfl)) (key .YG (.inr rfl)), hn, Py.ok_bind, hg2, Py.ok_bind, e1, e2]
    rfl
  · rw [hg f, v2 f _ _ (hG f) (hN f)]
    refine ⟨rfl, rfl, fun i j hi hj => ?_⟩
    have := (sm f).2.2 i j hi hj
    show (mergedMat (A f) (N f)).get i j = if PyFloat.isZero ((G f).get i j) then (N f).get i j else (G f).get i j
    rw [← this]
    unfold mergedMat
    dsimp only
    split
    · split <;> rfl
    · rfl

/-- **C129**: `addfringe` done again with the same tile B changes nothing.  If `g` is the result for tile A then the result for the file `g` is written to
has the same edges and arrays. -/
theorem C129_addfringe_again [F64 F] [LawfulF64 F] [ZeroLaw F] (geod : Geod F) (strict : Bool) (fa fb : List Byte)
    (nia nja nib njb : Nat) (ea eb : Edge) (g : Grid F) (old : List Byte)
    (h : addfringe geod strict fa nia nja fb nib njb = .ok (ea, eb, g)) :
    ∃ bytes g', writeMitgrid old g nia nja = (bytes, .ok ()) ∧
      addfringe geod strict bytes nia nja fb nib njb = .ok (ea, eb, g') ∧ Spec.GridSame g g' := by
  have hc := (C43_addfringe_keeps geod strict fa fb nia nja nib njb ea eb g h).1
  obtain ⟨bytes, g1, hw, hr, hs⟩ := C01_round_trip ZeroLaw.isZero_zero old g nia nja strict hc
  obtain ⟨g2, h2, hs2⟩ := addfringe_again geod strict fa bytes fb nia nja nib njb ea eb g g1 h hr hs
  exact ⟨bytes, g2, hw, h2, hs2⟩

/-- **C129** for the command: `sgaddfringe` on its own output writes the same file, byte for byte. -/
theorem C129_sgaddfringe_again [F64 F] [LawfulF64 F] [ZeroLaw F] (geod : Geod F) (strict : Bool) (fa fb bytes : List Byte)
    (nia nja nib njb : Nat) (old old' : List Byte)
    (h : addfringeMain (F := F) geod strict fa nia nja fb nib njb old = (bytes, .ok ())) :
    addfringeMain (F := F) geod strict bytes nia nja fb nib njb old' = (bytes, .ok ()) := by
  cases ha : (addfringe geod strict fa nia nja fb nib njb : Py (Edge × Edge × Grid F)) with
  | error e => unfold addfringeMain at h; rw [ha] at h; cases h
  | ok r =>
    obtain ⟨ea, eb, g⟩ := r
    unfold addfringeMain at h
    rw [ha] at h
    dsimp only at h
    have hc := (C43_addfringe_keeps geod strict fa fb nia nja nib njb ea eb g ha).1
    obtain ⟨b, g', hw, h2, hs⟩ := C129_addfringe_again geod strict fa fb nia nja nib njb ea eb g old ha
    rw [hw] at h
    cases h
    unfold addfringeMain
    rw [h2]
    dsimp only
    rw [← hw]
    exact (write_same hs hc old old').symm

/-- **C129** and `stitch`: it makes no difference whether `addfringe` was applied to tile A before; the results have the same sizes and arrays, or
both calls raise. -/
theorem C129_stitch_after_addfringe [F64 F] [LawfulF64 F] [ZeroLaw F] (geod : Geod F) (strict : Bool) (fa fb bytes : List Byte)
    (nia nja nib njb : Nat) (ea eb : Edge) (g : Grid F) (old : List Byte)
    (h : addfringe geod strict fa nia nja fb nib njb = .ok (ea, eb, g)) (hw : writeMitgrid old g nia nja = (bytes, .ok ())) :
    (∃ (c c' : Grid F) (nic njc : Nat), stitch geod strict fa nia nja fb nib njb = .ok (c, nic, njc) ∧
      stitch geod strict bytes nia nja fb nib njb = .ok (c', nic, njc) ∧ Spec.Complete c nic njc ∧ Spec.GridSame c c') ∨
    (∃ e e', (stitch geod strict fa nia nja fb nib njb : Py (Grid F × Nat × Nat)) = .error e ∧
      (stitch geod strict bytes nia nja fb nib njb : Py (Grid F × Nat × Nat)) = .error e') := by
  obtain ⟨b, g', hw', h', hs⟩ := C129_addfringe_again geod strict fa fb nia nja nib njb ea eb g old h
  rw [hw] at hw'
  cases hw'
  obtain ⟨-, -, a, tb, A, B, M, -, -, hrb, -, -, -, -, -, -, cg, -⟩ := addfringe_success geod strict fa fb nia nja nib njb ea eb g h
  obtain ⟨ho, -⟩ := addfringe_fits geod strict fa fb nia nja nib njb ea eb g h
  have cb := read_complete fb nib njb strict tb hrb
  have e1 : (stitch geod strict fa nia nja fb nib njb : Py (Grid F × Nat × Nat)) = joinTiles (ea, eb) g tb := by
    unfold stitch; rw [h, Py.ok_bind]; dsimp only; rw [hrb, Py.ok_bind]
  have e2 : (stitch geod strict bytes nia nja fb nib njb : Py (Grid F × Nat × Nat)) = joinTiles (ea, eb) g' tb := by
    unfold stitch; rw [h', Py.ok_bind]; dsimp only; rw [hrb, Py.ok_bind]
  obtain ⟨p1, p2⟩ := join_spec ea eb ho g tb nia nja nib njb cg cb
  obtain ⟨q1, q2⟩ := join_spec ea eb ho g' tb nia nja nib njb (GridSame.complete hs cg) cb
  by_cases hcell : Spec.edgeCells nia nja ea = Spec.edgeCells nib njb eb
  · obtain ⟨c, j1, v1⟩ := p1 hcell
    obtain ⟨c', j2, v2⟩ := q1 hcell
    refine .inl ⟨c, c', _, _, e1.trans j1, e2.trans j2, fun f => ?_, fun f => ?_⟩
    · obtain ⟨-, -, C, -, -, r1, r2, r3, -⟩ := v1 f
      exact ⟨C, r1, r2, r3⟩
    · obtain ⟨A1, B1, C1, a1, a2, a3, a4, a5, a6⟩ := v1 f
      obtain ⟨A2, B2, C2, b1, b2, b3, b4, b5, b6⟩ := v2 f
      rw [a2] at b2; cases b2
      obtain ⟨A3, k1, k2⟩ := GridSame.arr hs a1
      rw [b1] at k1; cases k1
      obtain ⟨A3, k3, k4, k5⟩ := cg f
      rw [a1] at k3; cases k3
      rw [a3, b3]
      refine ⟨by omega, by omega, fun i j hi hj => ?_⟩
      rw [a6 i j (by omega) (by omega), b6 i j (by omega) (by omega)]
      exact joinedAt_congr nia nja nib njb ea eb ho hcell f _ _ _ _ i j (by omega) (by omega)
        (fun i j hi hj => k2.2.2 i j (by omega) (by omega)) fun _ _ _ _ => rfl
  · obtain ⟨e, j1⟩ := p2 hcell
    obtain ⟨e', j2⟩ := q2 hcell
    exact .inr ⟨e, e', e1.trans j1, e2.trans j2⟩

/-- **C129** for the commands: the file of `sgstitch` is the same, byte for byte, when its first tile is the output of `sgaddfringe`. -/
theorem C129_sgstitch_after_sgaddfringe [F64 F] [LawfulF64 F] [ZeroLaw F] (geod : Geod F) (strict : Bool) (fa fb bytes out : List Byte)
    (nia nja nib njb : Nat) (old old1 old2 : List Byte)
    (h : addfringeMain (F := F) geod strict fa nia nja fb nib njb old = (bytes, .ok ())) :
    stitchMain (F := F) geod strict fa nia nja fb nib njb old1 = (out, .ok ()) ↔
      stitchMain (F := F) geod strict bytes nia nja fb nib njb old2 = (out, .ok ()) := by
  cases ha : (addfringe geod strict fa nia nja fb nib njb : Py (Edge × Edge × Grid F)) with
  | error e => unfold addfringeMain at h; rw [ha] at h; cases h
  | ok r =>
    obtain ⟨ea, eb, g⟩ := r
    unfold addfringeMain at h
    rw [ha] at h
    dsimp only at h
    rcases C129_stitch_after_addfringe geod strict fa fb bytes nia nja nib njb ea eb g old ha h with
      ⟨c, c', nic, njc, s1, s2, hc, hs⟩ | ⟨e, e', s1, s2⟩
    · unfold stitchMain
      rw [s1, s2]
      dsimp only
      rw [write_same hs hc old1 old2]
    · unfold stitchMain
      rw [s1, s2]
      dsimp only
      constructor <;> intro h <;> cases h

/-! ## Earlier seams -/

/-- Tile B has at least one cell across the matched edge. -/
theorem addfringe_depth [F64 F] [ZeroLaw F] (geod : Geod F) (strict : Bool) (fa fb : List Byte) (nia nja nib njb : Nat)
    (ea eb : Edge) (g : Grid F) (h : addfringe geod strict fa nia nja fb nib njb = .ok (ea, eb, g)) :
    0 < nia ∧ 0 < nja ∧ 0 < Spec.edgeCells njb nib eb := by
  obtain ⟨p1, p2, a, b, A, B, M, wrap, hra, hrb, hA, hB, hm, rfl, rfl, _⟩ :=
    addfringe_success geod strict fa fb nia nja nib njb ea eb g h
  have ca := read_complete fa nia nja strict a hra
  have cb := read_complete fb nib njb strict b hrb
  obtain ⟨ho, _, _, _, hl⟩ := matchedges_shape geod _ _ _ _ M hm
  obtain ⟨X, e, r1, r2⟩ := ca .XG
  rw [hA] at e; cases e
  obtain ⟨X, e, s1, s2⟩ := cb .XG
  rw [hB] at e; cases e
  have al := along_cells (A .XG) nia nja r1 r2 M.aEdge
  obtain ⟨f1, f2⟩ := edgeLine_fits geod _ _ _ _ _ _ _ (by omega) hl
  refine ⟨p1, p2, ?_⟩
  simp only [Spec.nrows, Spec.ncols] at s1 s2
  cases hb : M.bEdge <;> rw [hb] at f2 <;> simp only [Spec.across] at f2 <;> simp only [Spec.edgeCells] <;> omega

/-- **C130**: terms on the seam of `stitch` that are missing (C48) are computed by the next `addfringe`.  Let `c` be the stitched grid of tiles A and B,
written to a file, and let that file be tile A of an `addfringe` with any tile D.  Then a seam term that was zero in the first tile A, hence in `c`, has in
the result the value computed from the corner points of `c`.  All cells it needs lie inside `c`, except for `RAZ` at the two ends of the seam,
which is still zero. -/
theorem C130_earlier_seam [F64 F] [LawfulF64 F] [ZeroLaw F] [FloatOrder F] (geod : Geod F) (strict strict' : Bool) (fa fb fd bytes old : List Byte)
    (nia nja nib njb nic njc nid njd : Nat) (c g : Grid F) (ec ed : Edge)
    (h : stitch geod strict fa nia nja fb nib njb = .ok (c, nic, njc)) (hw : writeMitgrid old c nic njc = (bytes, .ok ()))
    (hd : addfringe geod strict' bytes nic njc fd nid njd = .ok (ec, ed, g)) :
    ∃ (ea : Edge) (a c' : Grid F) (cXG cYG : Mat F) (wrap : Bool), readMitgrid fa nia nja strict = .ok a ∧
      (nic, njc) = Spec.joinedSize nia nja nib njb ea ∧
      readMitgrid bytes nic njc strict' = .ok c' ∧ Spec.GridSame c c' ∧ c' .XG = .arr cXG ∧ c' .YG = .arr cYG ∧
      ∀ f ∈ Spec.seamFields ea, ∃ A C G, a f = .arr A ∧ c f = .arr C ∧ g f = .arr G ∧
        ∀ k < Spec.seamLen nia nja f ea,
          (Spec.Undefined f nic njc (Spec.seamC nia nja nib njb ea k).1 (Spec.seamC nia nja nib njb ea k).2 ↔
            f = .RAZ ∧ (k = 0 ∨ k + 1 = Spec.seamLen nia nja f ea)) ∧
          (PyFloat.isZero (A.get (Spec.seamA nia nja ea k).1 (Spec.seamA nia nja ea k).2) = true →
            C.get (Spec.seamC nia nja nib njb ea k).1 (Spec.seamC nia nja nib njb ea k).2 = Arith.zero ∧
            G.get (Spec.seamC nia nja nib njb ea k).1 (Spec.seamC nia nja nib njb ea k).2 =
              (Spec.halfTile geod wrap cXG cYG nic njc).entry geod.inv
                (Spec.quad geod ((Spec.halfTile geod wrap cXG cYG nic njc).usePlanar geod.inv)) f
                (Spec.seamC nia nja nib njb ea k).1 (Spec.seamC nia nja nib njb ea k).2 ∧
            (f = .RAZ ∧ (k = 0 ∨ k + 1 = Spec.seamLen nia nja f ea) →
              G.get (Spec.seamC nia nja nib njb ea k).1 (Spec.seamC nia nja nib njb ea k).2 = Arith.zero)) := by
  obtain ⟨e1, eb, a', b', hadd, -, ho, hcell, hsz1, hjn⟩ := C46_stitch_content geod strict fa fb nia nja nib njb nic njc c h
  obtain ⟨d1, d2, d3⟩ := addfringe_depth geod strict fa fb nia nja nib njb e1 eb a' hadd
  obtain ⟨ea, a, hra, hsz, hseam⟩ := C48_seam_terms_stay_zero geod strict fa fb nia nja nib njb nic njc c h
  have cc : Spec.Complete c nic njc := fun f => by
    obtain ⟨-, -, C, -, -, r1, r2, r3, -⟩ := hjn f
    have s1 := congrArg Prod.fst hsz1
    have s2 := congrArg Prod.snd hsz1
    dsimp only at s1 s2
    exact ⟨C, r1, by rw [r2, s1], by rw [r3, s2]⟩
  obtain ⟨by', c', hw', hr, hs⟩ := C01_round_trip ZeroLaw.isZero_zero old c nic njc strict' cc
  rw [hw] at hw'; cases hw'
  obtain ⟨c1, t, cXG, cYG, -, -, M, wrap, hr1, -, x1, y1, -, -, -, -, -, -, hv⟩ :=
    C44_zero_entries_recomputed_partial geod strict' bytes fd nic njc nid njd ec ed g hd
  rw [hr] at hr1; cases hr1
  refine ⟨ea, a, c', cXG, cYG, wrap, hra, hsz, hr, hs, x1, y1, fun f hf => ?_⟩
  obtain ⟨A, C, k1, k2, k3⟩ := hseam f hf
  obtain ⟨C', G, k4, k5, k6⟩ := hv f
  obtain ⟨C1, k7, k8⟩ := GridSame.arr hs k2
  rw [k4] at k7; cases k7
  obtain ⟨C1, k9, r, cl⟩ := cc f
  rw [k2] at k9; cases k9
  have s1 := congrArg Prod.fst hsz
  have s2 := congrArg Prod.snd hsz
  have t1 := congrArg Prod.fst hsz1
  have t2 := congrArg Prod.snd hsz1
  dsimp only at s1 s2 t1 t2
  have hpos : (ea = .E ∨ ea = .W → 0 < nib ∧ njc = nja ∧ nic = nia + nib) ∧ (ea = .N ∨ ea = .S → 0 < njb ∧ nic = nia ∧ njc = nja + njb) := by
    cases ea <;> cases e1 <;> cases eb <;> simp only [Spec.Opposite] at ho <;> simp only [Spec.joinedSize, Spec.edgeCells] at s1 s2 t1 t2 hcell d3 <;> simp <;> omega
  refine ⟨A, C, G, k1, k2, k5, fun k hk => ?_⟩
  have hu : Spec.Undefined f nic njc (Spec.seamC nia nja nib njb ea k).1 (Spec.seamC nia nja nib njb ea k).2 ↔
      f = .RAZ ∧ (k = 0 ∨ k + 1 = Spec.seamLen nia nja f ea) := by
    cases ea <;> simp only [Spec.seamFields, List.mem_cons, List.not_mem_nil, or_false] at hf <;> rcases hf with rfl | rfl | rfl | rfl <;>
      simp [Spec.Undefined, Spec.seamC, Spec.seamLen, Spec.nrows, Spec.ncols] at hk hpos ⊢ <;> omega
  refine ⟨hu, fun hz => ?_⟩
  · have z := k3 k hk hz
    have rng : (Spec.seamC nia nja nib njb ea k).1 < Spec.nrows f nic ∧ (Spec.seamC nia nja nib njb ea k).2 < Spec.ncols f njc := by
      cases ea <;> simp only [Spec.seamFields, List.mem_cons, List.not_mem_nil, or_false] at hf <;> rcases hf with rfl | rfl | rfl | rfl <;>
        simp [Spec.seamC, Spec.seamLen, Spec.nrows, Spec.ncols] at hk hpos ⊢ <;> omega
    have val := k6 _ _ rng.1 rng.2 (by rw [← k8.2.2 _ _ (by omega) (by omega), z]; exact ZeroLaw.isZero_zero)
    refine ⟨z, val, fun hr => ?_⟩
    rw [val]
    exact entry_undefined (Spec.halfTile geod wrap cXG cYG nic njc) _ _ f _ _ (hu.2 hr)

/-! ## Concrete cases -/

/-- The outcome of `sgaddfringe` on the tile to the east is good, and doing it again gives the same file. -/
example : ((addfringeMain (F := Toy) Toy.geod true (exFile 0 0) 1 1 (exFile 10 0) 1 1 []).2.toOption,
    (addfringeMain (F := Toy) Toy.geod true (addfringeMain (F := Toy) Toy.geod true (exFile 0 0) 1 1 (exFile 10 0) 1 1 []).1 1 1 (exFile 10 0) 1 1 []).2.toOption) =
    (some (), some ()) := by decide +kernel

/-- The tiles at 0 and at 10 stitched, written to a file. -/
def exPair : List Byte := (stitchMain (F := Toy) Toy.geod true (exFile 0 0) 1 1 (exFile 10 0) 1 1 []).1

set_option maxRecDepth 40000 in
/-- Their seam: `DXC` (1,0) is missing in the stitched grid and is 10, the distance of the two cell centres, after `addfringe` with the tile at 20.  `RAZ`
(1,0), at an end of the seam, is still missing. -/
example : ((readMitgrid exPair 2 1 true : Py (Grid Toy)).toOption.map fun c => (c.arr .DXC).toOption.map fun M => M.get 1 0,
    (addfringe Toy.geod true exPair 2 1 (exFile 20 0) 1 1).toOption.map fun r =>
      (r.1, r.2.1, (r.2.2.arr .DXC).toOption.map fun M => M.get 1 0, (r.2.2.arr .RAZ).toOption.map fun M => M.get 1 0)) =
    (some (some 0), some (.E, .W, some 10, some 0)) := by decide +kernel

end SG
