import Verif.Lemmas.AddFringe
/-! # C43, C44: `addfringe` -/

set_option linter.unusedSectionVars false

namespace SG
variable {F : Type} [PyFloat F]

theorem read_complete [F64 F] (bytes : List Byte) (ni nj : Nat) (strict : Bool) (g : Grid F)
    (h : readMitgrid bytes ni nj strict = .ok g) : Spec.Complete g ni nj := by
  have h' : readMitgrid bytes ni nj false = .ok g := by
    cases strict with
    | false => exact h
    | true => exact C06_strict_changes_no_data bytes ni nj g h
  have hl : Spec.Holds bytes (Spec.nDoubles ni nj) := by
    by_cases hl : Spec.Holds bytes (Spec.nDoubles ni nj)
    · exact hl
    · unfold Spec.Holds at hl
      obtain ⟨e, he, _⟩ := C04_short_file_raises (F := F) bytes ni nj false (by omega)
      rw [he] at h'; cases h'
  obtain ⟨g', hr, hc, _⟩ := C03_read_positional (F := F) bytes ni nj hl
  rw [h'] at hr
  cases hr
  exact hc

theorem names_all : ∀ f, f ∈ Mgf.names := by intro f; cases f <;> decide

theorem Complete.choose {g : Grid F} {m n : Nat} (h : Spec.Complete g m n) :
    ∃ A : Field → Mat F, (∀ f, g f = .arr (A f)) ∧ ∀ f, (A f).rows = Spec.nrows f m ∧ (A f).cols = Spec.ncols f n :=
  ⟨fun f => (h f).choose, fun f => (h f).choose_spec.1, fun f => (h f).choose_spec.2⟩

theorem nrows_pos (f : Field) (m : Nat) (h : 0 < m) : 0 < Spec.nrows f m := by
  cases f <;> simp only [Spec.nrows] <;> omega
theorem ncols_pos (f : Field) (n : Nat) (h : 0 < n) : 0 < Spec.ncols f n := by
  cases f <;> simp only [Spec.ncols] <;> omega

theorem mergeAll_spec (a new : Grid F) (m n : Nat) (hm : 0 < m) (hn : 0 < n) (ha : Spec.Complete a m n)
    (hw : Spec.Complete new m n) :
    ∃ g, mergeAll a new = .ok g ∧ ∀ f A N, a f = .arr A → new f = .arr N → g f = .arr (mergedMat A N) := by
  obtain ⟨A, hA, sA⟩ := Complete.choose ha
  obtain ⟨N, hN, sN⟩ := Complete.choose hw
  obtain ⟨g, e, v⟩ := merge_loop a A hA Mgf.names (by decide) new N hN (fun f => by
    rw [(sA f).1, (sA f).2, (sN f).1, (sN f).2]
    exact ⟨rfl, rfl, nrows_pos f m hm, ncols_pos f n hn⟩)
  refine ⟨g, e, fun f A' N' h1 h2 => ?_⟩
  rw [v, if_pos (names_all f)]
  rw [hA] at h1
  rw [hN] at h2
  cases h1
  cases h2
  rfl

/-- Complete description of a successful `addfringe`. -/
theorem addfringe_success [F64 F] [ZeroLaw F] (geod : Geod F) (strict : Bool) (fa fb : List Byte) (nia nja nib njb : Nat)
    (ea eb : Edge) (g : Grid F) (h : addfringe geod strict fa nia nja fb nib njb = .ok (ea, eb, g)) :
    0 < nia ∧ 0 < nja ∧ ∃ (a b : Grid F) (A : Field → Mat F) (B : Field → Mat F) (M : Matched F) (wrap : Bool),
      readMitgrid fa nia nja strict = .ok a ∧ readMitgrid fb nib njb strict = .ok b ∧
      (∀ f, a f = .arr (A f)) ∧ (∀ f, b f = .arr (B f)) ∧
      matchedges geod (A .XG) (A .YG) (B .XG) (B .YG) = .ok M ∧ M.aEdge = ea ∧ M.bEdge = eb ∧
      (wrap = true ↔ Spec.NonNeg (A .XG) ∧ (∀ k, k < M.edgeXg.len → PyFloat.lt (M.edgeXg.get k) Arith.zero = false) ∧
        PyFloat.lt (Arith.zero : F) Arith.zero = false) ∧ Spec.Complete g nia nja ∧
      ∀ f, ∃ R, g f = .arr R ∧ ∀ i j, i < Spec.nrows f nia → j < Spec.ncols f nja →
        R.get i j = if PyFloat.isZero ((A f).get i j) then
          (Spec.halfTile geod wrap (A .XG) (A .YG) nia nja).entry geod.inv
            (Spec.quad geod ((Spec.halfTile geod wrap (A .XG) (A .YG) nia nja).usePlanar geod.inv)) f i j
          else (A f).get i j := by
  unfold addfringe at h
  cases hra : (readMitgrid fa nia nja strict : Py (Grid F)) with
  | error e => rw [hra] at h; cases h
  | ok a =>
    rw [hra, Py.ok_bind] at h
    cases hrb : (readMitgrid fb nib njb strict : Py (Grid F)) with
    | error e => rw [hrb] at h; cases h
    | ok b =>
      rw [hrb, Py.ok_bind] at h
      have ca := read_complete fa nia nja strict a hra
      have cb := read_complete fb nib njb strict b hrb
      obtain ⟨A, hA, sA⟩ := Complete.choose ca
      obtain ⟨B, hB, sB⟩ := Complete.choose cb
      have xa : ∀ f, a.arr f = .ok (A f) := fun f => by unfold Grid.arr; rw [hA]
      have xb : ∀ f, b.arr f = .ok (B f) := fun f => by unfold Grid.arr; rw [hB]
      rw [xa, Py.ok_bind, xa, Py.ok_bind, xb, Py.ok_bind, xb, Py.ok_bind] at h
      cases hm : matchedges geod (A .XG) (A .YG) (B .XG) (B .YG) with
      | error e => rw [hm] at h; cases h
      | ok M =>
        rw [hm, Py.ok_bind] at h
        obtain ⟨_, _, _, hj, _⟩ := matchedges_shape geod _ _ _ _ M hm
        cases hn : refringe geod (A .XG) (A .YG) M with
        | error e => rw [hn] at h; cases h
        | ok new =>
          rw [hn, Py.ok_bind] at h
          obtain ⟨p1, p2, _, wrap, hw, cn, vn⟩ := (refringe_spec geod (A .XG) (A .YG) nia nja M M.aEdge hj
            (sA .XG).1 (sA .XG).2 (sA .YG).1 (sA .YG).2).1 new hn
          obtain ⟨g', hg, vg⟩ := mergeAll_spec a new nia nja p1 p2 ca cn
          rw [hg, Py.ok_bind] at h
          cases h
          refine ⟨p1, p2, a, b, A, B, M, wrap, rfl, rfl, hA, hB, hm, rfl, rfl, hw, ?_, ?_⟩
          · intro f
            obtain ⟨N, b1, b2, b3⟩ := cn f
            exact ⟨_, vg f _ _ (hA f) b1, b2, b3⟩
          · intro f
            obtain ⟨N, b1, b2⟩ := vn f
            refine ⟨_, vg f _ _ (hA f) b1, fun i j hi hj => ?_⟩
            rw [← b2 i j hi hj]
            rfl

/-- **C43**: on success the grid has tile A's sizes, every nonzero entry of tile A is unchanged, and so are all
entries of `XG` and `YG`. -/
theorem C43_addfringe_keeps [F64 F] [ZeroLaw F] (geod : Geod F) (strict : Bool) (fa fb : List Byte)
    (nia nja nib njb : Nat) (ea eb : Edge) (g : Grid F)
    (h : addfringe geod strict fa nia nja fb nib njb = .ok (ea, eb, g)) :
    Spec.Complete g nia nja ∧ ∃ a : Grid F, readMitgrid fa nia nja strict = .ok a ∧
      ∀ f, ∃ A R, a f = .arr A ∧ g f = .arr R ∧ ∀ i j, i < Spec.nrows f nia → j < Spec.ncols f nja →
        (PyFloat.isZero (A.get i j) = false ∨ f = .XG ∨ f = .YG) → R.get i j = A.get i j := by
  obtain ⟨p1, p2, a, b, A, B, M, wrap, hra, _, hA, _, _, _, _, _, hc, hv⟩ :=
    addfringe_success geod strict fa fb nia nja nib njb ea eb g h
  refine ⟨hc, a, hra, fun f => ?_⟩
  obtain ⟨R, hR, v⟩ := hv f
  refine ⟨A f, R, hA f, hR, fun i j hi hj hcase => ?_⟩
  rw [v i j hi hj]
  rcases hcase with hz | rfl | rfl
  · rw [hz]; rfl
  · split
    · show (Spec.halfPt geod wrap (A .XG) (A .YG) (2 * (i : Int)).toNat (2 * (j : Int)).toNat).1 = _
      rw [show (2 * (i : Int)).toNat = 2 * i by omega, show (2 * (j : Int)).toNat = 2 * j by omega]
      unfold Spec.halfPt
      dsimp only
      rw [if_pos (by omega), if_pos (by omega), show 2 * i / 2 = i by omega, show 2 * j / 2 = j by omega]
      rfl
    · rfl
  · split
    · show (Spec.halfPt geod wrap (A .XG) (A .YG) (2 * (i : Int)).toNat (2 * (j : Int)).toNat).2 = _
      rw [show (2 * (i : Int)).toNat = 2 * i by omega, show (2 * (j : Int)).toNat = 2 * j by omega]
      unfold Spec.halfPt
      dsimp only
      rw [if_pos (by omega), if_pos (by omega), show 2 * i / 2 = i by omega, show 2 * j / 2 = j by omega]
      rfl
    · rfl

/-- **C44** is false: on success every boundary term (cell sticking out of tile A) that is zero in tile A is still zero,
whatever tile B is. -/
theorem C44_boundary_terms_stay_zero [F64 F] [ZeroLaw F] (geod : Geod F) (strict : Bool) (fa fb : List Byte)
    (nia nja nib njb : Nat) (ea eb : Edge) (g : Grid F)
    (h : addfringe geod strict fa nia nja fb nib njb = .ok (ea, eb, g)) :
    ∃ a : Grid F, readMitgrid fa nia nja strict = .ok a ∧
      ∀ f, ∃ A R, a f = .arr A ∧ g f = .arr R ∧ ∀ i j, i < Spec.nrows f nia → j < Spec.ncols f nja →
        Spec.Undefined f nia nja i j → PyFloat.isZero (A.get i j) = true → R.get i j = Arith.zero := by
  obtain ⟨p1, p2, a, b, A, B, M, wrap, hra, _, hA, _, _, _, _, _, hc, hv⟩ :=
    addfringe_success geod strict fa fb nia nja nib njb ea eb g h
  refine ⟨a, hra, fun f => ?_⟩
  obtain ⟨R, hR, v⟩ := hv f
  refine ⟨A f, R, hA f, hR, fun i j hi hj hu hz => ?_⟩
  rw [v i j hi hj, if_pos hz]
  exact entry_undefined (Spec.halfTile geod wrap (A .XG) (A .YG) nia nja) _ _ f i j hu

/-- What is true of **C44**: every entry that is zero in tile A is replaced by the value computed from tile A's own corner
points (the boundary terms, which need tile B, are missing: see `C44_boundary_terms_stay_zero`).  Longitudes of new points are made positive exactly if
no longitude of tile A nor of the edge found by `matchedges` (C63) is negative. -/
theorem C44_zero_entries_recomputed_partial [F64 F] [ZeroLaw F] [FloatOrder F] (geod : Geod F) (strict : Bool) (fa fb : List Byte)
    (nia nja nib njb : Nat) (ea eb : Edge) (g : Grid F)
    (h : addfringe geod strict fa nia nja fb nib njb = .ok (ea, eb, g)) :
    ∃ (a b : Grid F) (aXG aYG bXG bYG : Mat F) (M : Matched F) (wrap : Bool), readMitgrid fa nia nja strict = .ok a ∧
      readMitgrid fb nib njb strict = .ok b ∧ a .XG = .arr aXG ∧ a .YG = .arr aYG ∧ b .XG = .arr bXG ∧ b .YG = .arr bYG ∧
      matchedges geod aXG aYG bXG bYG = .ok M ∧ M.aEdge = ea ∧ M.bEdge = eb ∧
      (wrap = true ↔ Spec.NonNeg aXG ∧ ∀ k, k < M.edgeXg.len → PyFloat.lt (M.edgeXg.get k) Arith.zero = false) ∧
      ∀ f, ∃ A R, a f = .arr A ∧ g f = .arr R ∧ ∀ i j, i < Spec.nrows f nia → j < Spec.ncols f nja →
        PyFloat.isZero (A.get i j) = true →
        R.get i j = (Spec.halfTile geod wrap aXG aYG nia nja).entry geod.inv
          (Spec.quad geod ((Spec.halfTile geod wrap aXG aYG nia nja).usePlanar geod.inv)) f i j := by
  obtain ⟨p1, p2, a, b, A, B, M, wrap, hra, hrb, hA, hB, hm, h1, h2, hw, hc, hv⟩ :=
    addfringe_success geod strict fa fb nia nja nib njb ea eb g h
  refine ⟨a, b, A .XG, A .YG, B .XG, B .YG, M, wrap, hra, hrb, hA _, hA _, hB _, hB _, hm, h1, h2, ?_, fun f => ?_⟩
  · rw [hw]
    exact ⟨fun h => ⟨h.1, h.2.1⟩, fun h => ⟨h.1, h.2, FloatOrder.irrefl _⟩⟩
  · obtain ⟨R, hR, v⟩ := hv f
    refine ⟨A f, R, hA f, hR, fun i j hi hj hz => ?_⟩
    rw [v i j hi hj, if_pos hz]

/-- **C65**: tile B influences the result by at most one bit: for a given tile A there are two grids such that the
result is one of them for every tile B that matches; if tile A has a negative longitude there is only one. -/
theorem C65_tile_b_is_ignored [F64 F] [ZeroLaw F] (geod : Geod F) (strict : Bool) (fa : List Byte) (nia nja : Nat) :
    ∃ g0 g1 : Grid F,
      (∀ fb nib njb ea eb (g : Grid F), addfringe geod strict fa nia nja fb nib njb = .ok (ea, eb, g) →
        Spec.GridSame g g0 ∨ Spec.GridSame g g1) ∧
      (∀ (a : Grid F) XG, readMitgrid fa nia nja strict = .ok a → a .XG = .arr XG → ¬ Spec.NonNeg XG →
        Spec.GridSame g0 g1) := by
  cases hra : (readMitgrid fa nia nja strict : Py (Grid F)) with
  | error e =>
    refine ⟨Grid.empty, Grid.empty, fun fb nib njb ea eb g h => ?_, fun a XG h => by cases h⟩
    obtain ⟨_, _, a, _, _, _, _, _, h', _⟩ := addfringe_success geod strict fa fb nia nja nib njb ea eb g h
    rw [hra] at h'
    cases h'
  | ok a =>
    obtain ⟨A, hA, sA⟩ := Complete.choose (read_complete fa nia nja strict a hra)
    let res : Bool → Grid F := fun wrap f => .arr ⟨Spec.nrows f nia, Spec.ncols f nja, fun i j =>
      if PyFloat.isZero ((A f).get i j) then
          (Spec.halfTile geod wrap (A .XG) (A .YG) nia nja).entry geod.inv
            (Spec.quad geod ((Spec.halfTile geod wrap (A .XG) (A .YG) nia nja).usePlanar geod.inv)) f i j
          else (A f).get i j⟩
    by_cases hneg : Spec.NonNeg (A .XG)
    · refine ⟨res false, res true, fun fb nib njb ea eb g h => ?_, fun a' XG h1 h2 h3 => ?_⟩
      · obtain ⟨_, _, a', _, A', _, _, wrap, h1, _, h2, _, _, _, _, _, hc, hv⟩ :=
          addfringe_success geod strict fa fb nia nja nib njb ea eb g h
        rw [hra] at h1
        cases h1
        have hAA : A' = A := by
          funext f
          have := h2 f
          rw [hA] at this
          injection this with e
          exact e.symm
        subst hAA
        have key : Spec.GridSame g (res wrap) := by
          intro f
          obtain ⟨R, hR, v⟩ := hv f
          obtain ⟨R', hR', r1, r2⟩ := hc f
          rw [hR] at hR'
          cases hR'
          rw [hR]
          exact ⟨r1, r2, fun i j hi hj => v i j (by omega) (by omega)⟩
        cases wrap with
        | false => exact Or.inl key
        | true => exact Or.inr key
      · cases h1
        rw [hA] at h2
        cases h2
        exact absurd hneg h3
    · refine ⟨res false, res false, fun fb nib njb ea eb g h => ?_, fun a' XG h1 h2 h3 f => ⟨rfl, rfl, fun _ _ _ _ => rfl⟩⟩
      obtain ⟨_, _, a', _, A', _, _, wrap, h1, _, h2, _, _, _, _, hw, hc, hv⟩ :=
          addfringe_success geod strict fa fb nia nja nib njb ea eb g h
      rw [hra] at h1
      cases h1
      have hAA : A' = A := by
        funext f
        have := h2 f
        rw [hA] at this
        injection this with e
        exact e.symm
      subst hAA
      have hwf : wrap = false := Bool.eq_false_iff.2 fun hh => hneg (hw.1 hh).1
      subst hwf
      left
      intro f
      obtain ⟨R, hR, v⟩ := hv f
      obtain ⟨R', hR', r1, r2⟩ := hc f
      rw [hR] at hR'
      cases hR'
      rw [hR]
      exact ⟨r1, r2, fun i j hi hj => v i j (by omega) (by omega)⟩

/-! ## When it succeeds -/

theorem foldlM_ok_step {α σ : Type} (f : σ → α → Py σ) : ∀ (l : List α) (s t : σ), l.foldlM f s = .ok t →
    ∀ x ∈ l, ∃ s' t', f s' x = .ok t' := by
  intro l
  induction l with
  | nil => intro s t _ x hx; cases hx
  | cons a l ih =>
    intro s t h x hx
    rw [List.foldlM_cons] at h
    cases ha : f s a with
    | error e => rw [ha] at h; cases h
    | ok s' =>
      rw [ha, Py.ok_bind] at h
      rcases List.mem_cons.1 hx with rfl | hx
      · exact ⟨s, s', ha⟩
      · exact ih s' t h x hx

theorem sel_next_ok (m : Mat F) (e : Edge) (v : Vec F) (h : m.sel (edgeNextSlice e) = .ok v) :
    2 ≤ Spec.across m e ∧ v.len = Spec.along m e := by
  have z : ∀ n : Nat, ∀ k, pyIdx n 1 = some k → 2 ≤ n := by
    intro n k h; unfold pyIdx at h; split at h <;> split at h <;> first | omega | cases h
  have l : ∀ n : Nat, ∀ k, pyIdx n (-2) = some k → 2 ≤ n := by
    intro n k h; unfold pyIdx at h; split at h <;> split at h <;> first | omega | cases h
  cases e <;> simp only [edgeNextSlice, Mat.sel] at h <;> split at h
  all_goals first
    | (cases h; done)
    | (rename_i hh; cases h; first | exact ⟨z _ _ hh, rfl⟩ | exact ⟨l _ _ hh, rfl⟩)

/-- A line can only be interpolated if tile B's edge has at least as many points as tile A's. -/
theorem edgeLine_fits (geod : Geod F) (aXG aYG bXG bYG : Mat F) (ae be : Edge) (r : Vec F × Vec F)
    (hp : 0 < Spec.along aXG ae) (h : edgeLine geod aXG aYG bXG bYG ae be = .ok r) :
    Spec.along aXG ae ≤ Spec.along bXG be ∧ 2 ≤ Spec.across bXG be := by
  have step : ∀ (pa pb : Nat → Nat × Nat) (n : Nat) (hn : 0 < n) (s0 t : Mat F × Mat F),
      (List.range n).foldlM (edgeStep aXG aYG bXG bYG (edgeSlice ae) (edgeNextSlice be) pa pb) s0 = .ok t →
      n ≤ Spec.along bXG be ∧ 2 ≤ Spec.across bXG be := by
    intro pa pb n hn s0 t hf
    obtain ⟨s', t', hs⟩ := foldlM_ok_step _ _ _ _ hf (n - 1) (List.mem_range.2 (by omega))
    unfold edgeStep at hs
    cases h1 : aXG.sel (edgeSlice ae) with
    | error e => rw [h1] at hs; cases hs
    | ok v1 =>
      rw [h1, Py.ok_bind] at hs
      cases h2 : v1.at' (n - 1) with
      | error e => rw [h2] at hs; cases hs
      | ok x1 =>
        rw [h2, Py.ok_bind] at hs
        cases h3 : s'.1.setAt (pa (n - 1)).1 (pa (n - 1)).2 x1 with
        | error e => rw [h3] at hs; cases hs
        | ok xg =>
          rw [h3, Py.ok_bind] at hs
          cases h4 : aYG.sel (edgeSlice ae) with
          | error e => rw [h4] at hs; cases hs
          | ok v2 =>
            rw [h4, Py.ok_bind] at hs
            cases h5 : v2.at' (n - 1) with
            | error e => rw [h5] at hs; cases hs
            | ok y1 =>
              rw [h5, Py.ok_bind] at hs
              cases h6 : s'.2.setAt (pa (n - 1)).1 (pa (n - 1)).2 y1 with
              | error e => rw [h6] at hs; cases hs
              | ok yg =>
                rw [h6, Py.ok_bind] at hs
                cases h7 : bXG.sel (edgeNextSlice be) with
                | error e => rw [h7] at hs; cases hs
                | ok v3 =>
                  rw [h7, Py.ok_bind] at hs
                  cases h8 : v3.at' (n - 1) with
                  | error e => rw [h8] at hs; cases hs
                  | ok x2 =>
                    obtain ⟨b1, b2⟩ := sel_next_ok bXG be v3 h7
                    unfold Vec.at' at h8
                    split at h8
                    · exact ⟨by omega, b1⟩
                    · cases h8
  have row : ∀ (pa pb : Nat → Nat × Nat) (hp : 0 < aXG.cols),
      (do
        let n := aXG.cols
        let z := Mat.full 3 (2 * n - 1) Arith.zero
        let s ← (List.range n).foldlM (edgeStep aXG aYG bXG bYG (edgeSlice ae) (edgeNextSlice be) pa pb) (z, z)
        let s ← fill geod s.1 s.2 0 2 0 (2 * (n - 1)) 1 1
        let x ← s.1.sel (.row 1)
        let y ← s.2.sel (.row 1)
        return (x, y) : Py (Vec F × Vec F)) = .ok r → aXG.cols ≤ Spec.along bXG be ∧ 2 ≤ Spec.across bXG be := by
    intro pa pb hp h
    dsimp only at h
    cases hf : (List.range aXG.cols).foldlM (edgeStep aXG aYG bXG bYG (edgeSlice ae) (edgeNextSlice be) pa pb)
        (Mat.full 3 (2 * aXG.cols - 1) Arith.zero, Mat.full 3 (2 * aXG.cols - 1) Arith.zero) with
    | error e => rw [hf] at h; cases h
    | ok t => exact step pa pb _ hp _ t hf
  have col : ∀ (pa pb : Nat → Nat × Nat) (hp : 0 < aXG.rows),
      (do
        let n := aXG.rows
        let z := Mat.full (2 * n - 1) 3 Arith.zero
        let s ← (List.range n).foldlM (edgeStep aXG aYG bXG bYG (edgeSlice ae) (edgeNextSlice be) pa pb) (z, z)
        let s ← fill geod s.1 s.2 0 (2 * (n - 1)) 0 2 1 1
        let x ← s.1.sel (.col 1)
        let y ← s.2.sel (.col 1)
        return (x, y) : Py (Vec F × Vec F)) = .ok r → aXG.rows ≤ Spec.along bXG be ∧ 2 ≤ Spec.across bXG be := by
    intro pa pb hp h
    dsimp only at h
    cases hf : (List.range aXG.rows).foldlM (edgeStep aXG aYG bXG bYG (edgeSlice ae) (edgeNextSlice be) pa pb)
        (Mat.full (2 * aXG.rows - 1) 3 Arith.zero, Mat.full (2 * aXG.rows - 1) 3 Arith.zero) with
    | error e => rw [hf] at h; cases h
    | ok t => exact step pa pb _ hp _ t hf
  cases ae with
  | E => exact row _ _ hp h
  | W => exact row _ _ hp h
  | N => exact col _ _ hp h
  | S => exact col _ _ hp h

/-- The number of cells along the matched edge of a tile. -/
def Spec.edgeCells (ni nj : Nat) : Edge → Nat
  | .W | .E => nj
  | .S | .N => ni

theorem along_cells (m : Mat F) (ni nj : Nat) (h1 : m.rows = ni + 1) (h2 : m.cols = nj + 1) (e : Edge) :
    Spec.along m e = Spec.edgeCells ni nj e + 1 := by
  cases e <;> simp only [Spec.along, Spec.edgeCells, h1, h2]

/-- **C43**, other half: two tiles (at least one cell each way) whose files can be read and whose edges match are
accepted. -/
theorem C43_addfringe_accepts [F64 F] [ZeroLaw F] [FloatOrder F] (geod : Geod F) (strict : Bool) (fa fb : List Byte)
    (nia nja nib njb : Nat) (h1 : 0 < nia) (h2 : 0 < nja) (a b : Grid F) (aXG aYG bXG bYG : Mat F) (M : Matched F)
    (hra : readMitgrid fa nia nja strict = .ok a) (hrb : readMitgrid fb nib njb strict = .ok b)
    (hax : a .XG = .arr aXG) (hay : a .YG = .arr aYG) (hbx : b .XG = .arr bXG) (hby : b .YG = .arr bYG)
    (hm : matchedges geod aXG aYG bXG bYG = .ok M) :
    ∃ g, addfringe geod strict fa nia nja fb nib njb = .ok (M.aEdge, M.bEdge, g) := by
  have ca := read_complete fa nia nja strict a hra
  have cb := read_complete fb nib njb strict b hrb
  have shape : ∀ (g : Grid F) (m n : Nat) (f : Field) (X : Mat F), Spec.Complete g m n → g f = .arr X →
      X.rows = Spec.nrows f m ∧ X.cols = Spec.ncols f n := by
    intro g m n f X hc hx
    obtain ⟨X', e, r⟩ := hc f
    rw [hx] at e
    cases e
    exact r
  obtain ⟨x1, x2⟩ := shape a nia nja _ _ ca hax
  obtain ⟨y1, y2⟩ := shape a nia nja _ _ ca hay
  obtain ⟨u1, u2⟩ := shape b nib njb _ _ cb hbx
  obtain ⟨v1, v2⟩ := shape b nib njb _ _ cb hby
  obtain ⟨_, _, _, hj, hl⟩ := matchedges_shape geod _ _ _ _ M hm
  obtain ⟨ta, tb⟩ := matchedges_tiles geod _ _ _ _ M ⟨y1.trans x1.symm, y2.trans x2.symm⟩
    ⟨v1.trans u1.symm, v2.trans u2.symm⟩ hm
  have al := along_cells aXG nia nja x1 x2 M.aEdge
  have pos : 0 < Spec.edgeCells nia nja M.aEdge := by
    cases M.aEdge <;> simp only [Spec.edgeCells] <;> assumption
  obtain ⟨f1, f2⟩ := edgeLine_fits geod _ _ _ _ _ _ _ (by omega) hl
  obtain ⟨x, y, hl', hi⟩ := edgeLine_spec geod aXG aYG bXG bYG ta tb M.aEdge M.bEdge ⟨by omega, f1, f2⟩
  rw [hl] at hl'
  injection hl' with hl'
  injection hl' with e1 e2
  have len : ∀ v : Vec F, v.len = 2 * Spec.along aXG M.aEdge - 1 →
      (v.len = match M.aEdge with | .E | .W => 2 * nja + 1 | .N | .S => 2 * nia + 1) := by
    intro v hv
    rw [hv, al]
    cases M.aEdge <;> simp only [Spec.edgeCells] <;> omega
  have key : ∀ e, M.aEdge = e → ∃ new, refringe geod aXG aYG M = .ok new := by
    intro e he
    have l1 := len M.edgeXg (by rw [e1]; exact hi.lenx)
    have l2 := len M.edgeYg (by rw [e2]; exact hi.leny)
    rw [he] at l1 l2
    refine (refringe_spec geod aXG aYG nia nja M e (by rw [hj, he]) x1 x2 y1 y2).2 h1 h2 ?_ ?_
    · cases e <;> exact l1
    · cases e <;> exact l2
  obtain ⟨new, hn⟩ := key _ rfl
  obtain ⟨_, _, _, _, _, cn, _⟩ := (refringe_spec geod aXG aYG nia nja M M.aEdge hj x1 x2 y1 y2).1 new hn
  obtain ⟨g, hg, _⟩ := mergeAll_spec a new nia nja h1 h2 ca cn
  refine ⟨g, ?_⟩
  have xa : ∀ (g : Grid F) f X, g f = .arr X → g.arr f = .ok X := fun g f X h => by unfold Grid.arr; rw [h]
  unfold addfringe
  rw [hra, Py.ok_bind, hrb, Py.ok_bind, xa _ _ _ hax, Py.ok_bind, xa _ _ _ hay, Py.ok_bind, xa _ _ _ hbx, Py.ok_bind,
    xa _ _ _ hby, Py.ok_bind, hm, Py.ok_bind, hn, Py.ok_bind, hg, Py.ok_bind]
  rfl

/-- On success tile B's matched edge has at least as many points as tile A's. -/
theorem addfringe_fits [F64 F] [ZeroLaw F] (geod : Geod F) (strict : Bool) (fa fb : List Byte) (nia nja nib njb : Nat)
    (ea eb : Edge) (g : Grid F) (h : addfringe geod strict fa nia nja fb nib njb = .ok (ea, eb, g)) :
    Spec.Opposite (ea, eb) ∧ Spec.edgeCells nia nja ea ≤ Spec.edgeCells nib njb eb := by
  obtain ⟨p1, p2, a, b, A, B, M, wrap, hra, hrb, hA, hB, hm, rfl, rfl, _⟩ :=
    addfringe_success geod strict fa fb nia nja nib njb ea eb g h
  have ca := read_complete fa nia nja strict a hra
  have cb := read_complete fb nib njb strict b hrb
  obtain ⟨ho, _, _, _, hl⟩ := matchedges_shape geod _ _ _ _ M hm
  obtain ⟨X, e, r1, r2⟩ := ca .XG
  rw [hA] at e; cases e
  obtain ⟨X, e, s1, s2⟩ := cb .XG
  rw [hB] at e; cases e
  have al := along_cells (A .XG) nia nja r1 r2 M.aEdge
  have bl := along_cells (B .XG) nib njb s1 s2 M.bEdge
  obtain ⟨f1, f2⟩ := edgeLine_fits geod _ _ _ _ _ _ _ (by omega) hl
  exact ⟨ho, by omega⟩

/-! ## Concrete cases -/

/-- The file of a 1 x 1 tile: every field is 7 except the corner points (spacing 10 from (x,y)) and the boundary terms,
which are zero. -/
def exFile (x y : Int) : List Byte :=
  (Mgf.names.flatMap fun f => [(0, 0), (1, 0), (0, 1), (1, 1)].flatMap fun p : Nat × Nat =>
    beBytes (F64.toBits (match f with
      | .XG => Toy.ofInt (x + 10 * p.1)
      | .YG => Toy.ofInt (y + 10 * p.2)
      | .XC | .YC | .DXF | .DYF | .RAC => if p = (0, 0) then 7 else 0
      | .DXG => if p.1 = 0 then 7 else 0
      | .DYG => if p.2 = 0 then 7 else 0
      | _ => 0)))

set_option maxRecDepth 40000 in
/-- The tile to the east: matched along E/W, RAC is kept, RAZ (a boundary term) stays zero. -/
example : (addfringe Toy.geod true (exFile 0 0) 1 1 (exFile 10 0) 1 1).toOption.map (fun r =>
    (r.1, r.2.1, (r.2.2.arr .RAC).toOption.map fun M => M.get 0 0, (r.2.2.arr .RAZ).toOption.map fun M => M.get 1 1,
      (r.2.2.arr .XG).toOption.map fun M => M.get 1 1)) =
    some (.E, .W, some 7, some 0, some 10) := by decide +kernel

end SG
