import Verif.Props.AddFringe
import Verif.Props.Conservation
import Verif.Model.Stitch
/-! # C45-C49: `stitch` -/

set_option linter.unusedSectionVars false

namespace SG
variable {F : Type} [PyFloat F]

/-! ## Specification -/

/-- Cell counts of the stitched tile, `e` being tile A's matched edge. -/
def Spec.joinedSize (nia nja nib njb : Nat) : Edge → Nat × Nat
  | .E | .W => (nia + nib, nja)
  | .N | .S => (nia, nja + njb)

/-- Entry `(i,j)` of field `f` of the stitched tile: tile A's entry where tile A has one, else tile B's; tile B's
origin is tile A's far corner (E, N), or tile A's origin is tile B's far corner (W, S). -/
def Spec.joinedAt (nia nja nib njb : Nat) (e : Edge) (f : Field) (A B : Mat F) (i j : Nat) : F :=
  match e with
  | .E => if i < Spec.nrows f nia then A.get i j else B.get (i - nia) j
  | .W => if nib ≤ i then A.get (i - nib) j else B.get i j
  | .N => if j < Spec.ncols f nja then A.get i j else B.get i (j - nja)
  | .S => if njb ≤ j then A.get i (j - njb) else B.get i j

/-- `c` is the result of joining tiles `a` and `b` along tile A's edge `e`. -/
def Spec.Joined (nia nja nib njb : Nat) (e : Edge) (a b c : Grid F) : Prop :=
  ∀ f, ∃ A B C, a f = .arr A ∧ b f = .arr B ∧ c f = .arr C ∧
    C.rows = Spec.nrows f (Spec.joinedSize nia nja nib njb e).1 ∧
    C.cols = Spec.ncols f (Spec.joinedSize nia nja nib njb e).2 ∧
    ∀ i j, i < C.rows → j < C.cols → C.get i j = Spec.joinedAt nia nja nib njb e f A B i j

/-! ## Joining -/

theorem assignAll_map (v : Field → Py (Mat F)) : ∀ (l : List Field) (c0 : Grid F),
    ((∀ f ∈ l, ∃ m, v f = .ok m) → ∃ c, assignAll (l.map fun f => (f, v f)) c0 = .ok c ∧
      ∀ f, (f ∉ l → c f = c0 f) ∧ ∀ m, f ∈ l → v f = .ok m → c f = .arr m) ∧
    ((∃ f ∈ l, ∃ e, v f = .error e) → ∃ e, assignAll (l.map fun f => (f, v f)) c0 = .error e) := by
  intro l
  induction l with
  | nil =>
    intro c0
    refine ⟨fun _ => ⟨c0, rfl, fun f => ⟨fun _ => rfl, fun m hm => ?_⟩⟩, ?_⟩
    · cases hm
    · rintro ⟨f, hf, _⟩; cases hf
  | cons x l ih =>
    intro c0
    constructor
    · intro h
      obtain ⟨m, hm⟩ := h x (by simp)
      obtain ⟨c, hc, vc⟩ := (ih (c0.put x m)).1 (fun f hf => h f (by simp [hf]))
      refine ⟨c, ?_, fun f => ⟨fun hf => ?_, fun m' hf hm' => ?_⟩⟩
      · show (do let m ← v x; assignAll (l.map fun f => (f, v f)) (c0.put x m)) = _
        rw [hm, Py.ok_bind, hc]
      · rw [(vc f).1 (fun hh => hf (by simp [hh]))]
        have : f ≠ x := fun hh => hf (by simp [hh])
        unfold Grid.put
        rw [if_neg this]
      · by_cases hl : f ∈ l
        · exact (vc f).2 m' hl hm'
        · rcases List.mem_cons.1 hf with rfl | hf
          · rw [(vc f).1 hl]
            rw [hm] at hm'
            cases hm'
            unfold Grid.put
            rw [if_pos rfl]
          · exact absurd hf hl
    · rintro ⟨f, hf, e, he⟩
      show ∃ e, (do let m ← v x; assignAll (l.map fun f => (f, v f)) (c0.put x m)) = .error e
      cases hx : v x with
      | error e' => exact ⟨e', rfl⟩
      | ok m =>
        rw [Py.ok_bind]
        rcases List.mem_cons.1 hf with rfl | hf
        · rw [hx] at he; cases he
        · exact (ih _).2 ⟨f, hf, e, he⟩

/-- The order of the assignments in stitch.py. -/
def joinOrder : List Field := [.XG, .YG, .XC, .YC, .RAC, .DXG, .DYG, .RAZ, .DXC, .DYC, .RAW, .DXV, .DYF, .RAS, .DXF, .DYU]

theorem joinOrder_all : ∀ f, f ∈ joinOrder := by intro f; cases f <;> decide

theorem join_core (edges : Edge × Edge) (a b : Grid F) (v : Field → Py (Mat F))
    (hl : joinList edges a b = joinOrder.map fun f => (f, v f)) :
    ((∀ f, ∃ m, v f = .ok m) → ∃ c X, v .XC = .ok X ∧ joinTiles edges a b = .ok (c, X.rows, X.cols) ∧
      ∀ f m, v f = .ok m → c f = .arr m) ∧
    ((∃ f e, v f = .error e) → ∃ e, joinTiles edges a b = .error e) := by
  unfold joinTiles
  rw [hl]
  obtain ⟨p1, p2⟩ := assignAll_map v joinOrder Grid.allNone
  constructor
  · intro h
    obtain ⟨c, hc, vc⟩ := p1 (fun f _ => h f)
    obtain ⟨X, hX⟩ := h .XC
    refine ⟨c, X, hX, ?_, fun f m hm => (vc f).2 m (joinOrder_all f) hm⟩
    rw [hc, Py.ok_bind, (vc .XC).2 X (joinOrder_all _) hX]
    rfl
  · rintro ⟨f, e, he⟩
    obtain ⟨e, he⟩ := p2 ⟨f, joinOrder_all f, e, he⟩
    exact ⟨e, by rw [he]; rfl⟩

theorem catAB_eq (axis : Nat) (cut : Mat F → Mat F) (a b : Grid F) (f : Field) (A B : Mat F) (ha : a f = .arr A)
    (hb : b f = .arr B) : catAB axis cut a b f = if axis = 0 then A.concat0 (cut B) else A.concat1 (cut B) := by
  have xa : ∀ (g : Grid F) f X, g f = .arr X → g.arr f = .ok X := fun g f X h => by unfold Grid.arr; rw [h]
  unfold catAB
  rw [xa _ _ _ ha, Py.ok_bind, xa _ _ _ hb, Py.ok_bind]

theorem catBA_eq (axis : Nat) (cut : Mat F → Mat F) (a b : Grid F) (f : Field) (A B : Mat F) (ha : a f = .arr A)
    (hb : b f = .arr B) : catBA axis cut a b f = if axis = 0 then (cut B).concat0 A else (cut B).concat1 A := by
  have xa : ∀ (g : Grid F) f X, g f = .arr X → g.arr f = .ok X := fun g f X h => by unfold Grid.arr; rw [h]
  unfold catBA
  rw [xa _ _ _ hb, Py.ok_bind, xa _ _ _ ha, Py.ok_bind]

/-- Whether a field has one more row (column) than there are cells. -/
def stagI (f : Field) : Bool := Spec.nrows f 0 == 1
def stagJ (f : Field) : Bool := Spec.ncols f 0 == 1

theorem nrows_stag (f : Field) (n : Nat) : Spec.nrows f n = n + if stagI f then 1 else 0 := by cases f <;> rfl
theorem ncols_stag (f : Field) (n : Nat) : Spec.ncols f n = n + if stagJ f then 1 else 0 := by cases f <;> rfl

/-- What `joinTiles` does on complete tiles. -/
theorem join_spec (ea eb : Edge) (ho : Spec.Opposite (ea, eb)) (a b : Grid F) (nia nja nib njb : Nat)
    (ha : Spec.Complete a nia nja) (hb : Spec.Complete b nib njb) :
    (Spec.edgeCells nia nja ea = Spec.edgeCells nib njb eb →
      ∃ c, joinTiles (ea, eb) a b = .ok (c, Spec.joinedSize nia nja nib njb ea) ∧
        Spec.Joined nia nja nib njb ea a b c) ∧
    (Spec.edgeCells nia nja ea ≠ Spec.edgeCells nib njb eb → ∃ e, joinTiles (ea, eb) a b = .error e) := by
  obtain ⟨A, hA, sA⟩ := Complete.choose ha
  obtain ⟨B, hB, sB⟩ := Complete.choose hb
  have sA : ∀ f, (A f).rows = nia + (if stagI f then 1 else 0) ∧ (A f).cols = nja + (if stagJ f then 1 else 0) :=
    fun f => ⟨(sA f).1.trans (nrows_stag f _), (sA f).2.trans (ncols_stag f _)⟩
  have sB : ∀ f, (B f).rows = nib + (if stagI f then 1 else 0) ∧ (B f).cols = njb + (if stagJ f then 1 else 0) :=
    fun f => ⟨(sB f).1.trans (nrows_stag f _), (sB f).2.trans (ncols_stag f _)⟩
  cases ea <;> cases eb <;> simp only [Spec.Opposite] at ho <;> simp only [Spec.edgeCells]
  -- N S
  · obtain ⟨p1, p2⟩ := join_core (.N, .S) a b (fun f => catAB 1 (if stagJ f then Mat.tailCols else id) a b f) rfl
    have hv : ∀ f, catAB 1 (if stagJ f then Mat.tailCols else id) a b f =
        (A f).concat1 ((if stagJ f then Mat.tailCols else id) (B f)) := fun f => catAB_eq 1 _ a b f _ _ (hA f) (hB f)
    constructor
    · intro heq
      have hok : ∀ f, ∃ m, catAB 1 (if stagJ f then Mat.tailCols else id) a b f = .ok m ∧
          m.rows = Spec.nrows f nia ∧ m.cols = Spec.ncols f (nja + njb) ∧
          ∀ i j, m.get i j = Spec.joinedAt nia nja nib njb .N f (A f) (B f) i j := by
        intro f
        rw [hv]
        unfold Mat.concat1
        obtain ⟨a1, a2⟩ := sA f
        obtain ⟨b1, b2⟩ := sB f
        simp only [Spec.joinedAt, nrows_stag, ncols_stag]
        cases hs : stagJ f
        · rw [if_pos (by simp only [Bool.false_eq_true, if_false, id]; omega)]
          rw [hs] at a2 b2
          simp only [Bool.false_eq_true, if_false, id, Nat.add_zero] at a2 b2 ⊢
          exact ⟨_, rfl, a1, (by dsimp only; omega), fun i j => by dsimp only; rw [a2]⟩
        · rw [if_pos (by simp only [if_true, Mat.tailCols]; omega)]
          rw [hs] at a2 b2
          simp only [if_true, Mat.tailCols] at a2 b2 ⊢
          refine ⟨_, rfl, a1, (by dsimp only; omega), fun i j => ?_⟩
          dsimp only
          rw [a2]
          split
          · rfl
          · rw [show j - (nja + 1) + 1 = j - nja by omega]
      obtain ⟨c, X, hX, hc, vc⟩ := p1 (fun f => ⟨_, (hok f).choose_spec.1⟩)
      obtain ⟨X', e, x1, x2, _⟩ := hok .XC
      rw [hX] at e
      cases e
      refine ⟨c, ?_, fun f => ?_⟩
      · rw [hc, x1, x2]; rfl
      · obtain ⟨m, e, r1, r2, r3⟩ := hok f
        exact ⟨A f, B f, m, hA f, hB f, vc f m e, r1, r2, fun i j _ _ => r3 i j⟩
    · intro hne
      refine p2 ⟨.XC, .valueError, ?_⟩
      show catAB 1 (if stagJ .XC then Mat.tailCols else id) a b .XC = _
      rw [hv]
      unfold Mat.concat1
      rw [if_neg]
      have a1 := (sA .XC).1
      have b1 := (sB .XC).1
      simp [stagI, stagJ, Spec.nrows, Spec.ncols] at a1 b1 ⊢
      omega
  -- S N
  · obtain ⟨p1, p2⟩ := join_core (.S, .N) a b (fun f => catBA 1 (if stagJ f then Mat.initCols else id) a b f) rfl
    have hv : ∀ f, catBA 1 (if stagJ f then Mat.initCols else id) a b f =
        ((if stagJ f then Mat.initCols else id) (B f)).concat1 (A f) := fun f => catBA_eq 1 _ a b f _ _ (hA f) (hB f)
    constructor
    · intro heq
      have hok : ∀ f, ∃ m, catBA 1 (if stagJ f then Mat.initCols else id) a b f = .ok m ∧
          m.rows = Spec.nrows f nia ∧ m.cols = Spec.ncols f (nja + njb) ∧
          ∀ i j, m.get i j = Spec.joinedAt nia nja nib njb .S f (A f) (B f) i j := by
        intro f
        rw [hv]
        unfold Mat.concat1
        obtain ⟨a1, a2⟩ := sA f
        obtain ⟨b1, b2⟩ := sB f
        simp only [Spec.joinedAt, nrows_stag, ncols_stag]
        have flip : ∀ (j : Nat) (x y : F), (if j < njb then x else y) = if njb ≤ j then y else x := by
          intro j x y
          by_cases h : j < njb
          · rw [if_pos h, if_neg (by omega)]
          · rw [if_neg h, if_pos (by omega)]
        cases hs : stagJ f
        · rw [if_pos (by simp only [Bool.false_eq_true, if_false, id]; omega)]
          rw [hs] at a2 b2
          simp only [Bool.false_eq_true, if_false, id, Nat.add_zero] at a2 b2 ⊢
          exact ⟨_, rfl, (by dsimp only; omega), (by dsimp only; omega), fun i j => by dsimp only; rw [b2, flip]⟩
        · rw [if_pos (by simp only [if_true, Mat.initCols]; omega)]
          rw [hs] at a2 b2
          simp only [if_true, Mat.initCols] at a2 b2 ⊢
          refine ⟨_, rfl, (by dsimp only; omega), (by dsimp only; omega), fun i j => ?_⟩
          dsimp only
          rw [b2, show njb + 1 - 1 = njb by omega, flip]
      obtain ⟨c, X, hX, hc, vc⟩ := p1 (fun f => ⟨_, (hok f).choose_spec.1⟩)
      obtain ⟨X', e, x1, x2, _⟩ := hok .XC
      rw [hX] at e
      cases e
      refine ⟨c, ?_, fun f => ?_⟩
      · rw [hc, x1, x2]; rfl
      · obtain ⟨m, e, r1, r2, r3⟩ := hok f
        exact ⟨A f, B f, m, hA f, hB f, vc f m e, r1, r2, fun i j _ _ => r3 i j⟩
    · intro hne
      refine p2 ⟨.XC, .valueError, ?_⟩
      show catBA 1 (if stagJ .XC then Mat.initCols else id) a b .XC = _
      rw [hv]
      unfold Mat.concat1
      rw [if_neg]
      have a1 := (sA .XC).1
      have b1 := (sB .XC).1
      simp [stagI, stagJ, Spec.nrows, Spec.ncols] at a1 b1 ⊢
      omega
  -- E W
  · obtain ⟨p1, p2⟩ := join_core (.E, .W) a b (fun f => catAB 0 (if stagI f then Mat.tailRows else id) a b f) rfl
    have hv : ∀ f, catAB 0 (if stagI f then Mat.tailRows else id) a b f =
        (A f).concat0 ((if stagI f then Mat.tailRows else id) (B f)) := fun f => catAB_eq 0 _ a b f _ _ (hA f) (hB f)
    constructor
    · intro heq
      have hok : ∀ f, ∃ m, catAB 0 (if stagI f then Mat.tailRows else id) a b f = .ok m ∧
          m.rows = Spec.nrows f (nia + nib) ∧ m.cols = Spec.ncols f nja ∧
          ∀ i j, m.get i j = Spec.joinedAt nia nja nib njb .E f (A f) (B f) i j := by
        intro f
        rw [hv]
        unfold Mat.concat0
        obtain ⟨a1, a2⟩ := sA f
        obtain ⟨b1, b2⟩ := sB f
        simp only [Spec.joinedAt, nrows_stag, ncols_stag]
        cases hs : stagI f
        · rw [if_pos (by simp only [Bool.false_eq_true, if_false, id]; omega)]
          rw [hs] at a1 b1
          simp only [Bool.false_eq_true, if_false, id, Nat.add_zero] at a1 b1 ⊢
          exact ⟨_, rfl, (by dsimp only; omega), a2, fun i j => by dsimp only; rw [a1]⟩
        · rw [if_pos (by simp only [if_true, Mat.tailRows]; omega)]
          rw [hs] at a1 b1
          simp only [if_true, Mat.tailRows] at a1 b1 ⊢
          refine ⟨_, rfl, (by dsimp only; omega), a2, fun i j => ?_⟩
          dsimp only
          rw [a1]
          split
          · rfl
          · rw [show i - (nia + 1) + 1 = i - nia by omega]
      obtain ⟨c, X, hX, hc, vc⟩ := p1 (fun f => ⟨_, (hok f).choose_spec.1⟩)
      obtain ⟨X', e, x1, x2, _⟩ := hok .XC
      rw [hX] at e
      cases e
      refine ⟨c, ?_, fun f => ?_⟩
      · rw [hc, x1, x2]; rfl
      · obtain ⟨m, e, r1, r2, r3⟩ := hok f
        exact ⟨A f, B f, m, hA f, hB f, vc f m e, r1, r2, fun i j _ _ => r3 i j⟩
    · intro hne
      refine p2 ⟨.XC, .valueError, ?_⟩
      show catAB 0 (if stagI .XC then Mat.tailRows else id) a b .XC = _
      rw [hv]
      unfold Mat.concat0
      rw [if_neg]
      have a1 := (sA .XC).2
      have b1 := (sB .XC).2
      simp [stagI, stagJ, Spec.nrows, Spec.ncols] at a1 b1 ⊢
      omega
  -- W E
  · obtain ⟨p1, p2⟩ := join_core (.W, .E) a b (fun f => catBA 0 (if stagI f then Mat.initRows else id) a b f) rfl
    have hv : ∀ f, catBA 0 (if stagI f then Mat.initRows else id) a b f =
        ((if stagI f then Mat.initRows else id) (B f)).concat0 (A f) := fun f => catBA_eq 0 _ a b f _ _ (hA f) (hB f)
    constructor
    · intro heq
      have hok : ∀ f, ∃ m, catBA 0 (if stagI f then Mat.initRows else id) a b f = .ok m ∧
          m.rows = Spec.nrows f (nia + nib) ∧ m.cols = Spec.ncols f nja ∧
          ∀ i j, m.get i j = Spec.joinedAt nia nja nib njb .W f (A f) (B f) i j := by
        intro f
        rw [hv]
        unfold Mat.concat0
        obtain ⟨a1, a2⟩ := sA f
        obtain ⟨b1, b2⟩ := sB f
        simp only [Spec.joinedAt, nrows_stag, ncols_stag]
        have flip : ∀ (j : Nat) (x y : F), (if j < nib then x else y) = if nib ≤ j then y else x := by
          intro j x y
          by_cases h : j < nib
          · rw [if_pos h, if_neg (by omega)]
          · rw [if_neg h, if_pos (by omega)]
        cases hs : stagI f
        · rw [if_pos (by simp only [Bool.false_eq_true, if_false, id]; omega)]
          rw [hs] at a1 b1
          simp only [Bool.false_eq_true, if_false, id, Nat.add_zero] at a1 b1 ⊢
          exact ⟨_, rfl, (by dsimp only; omega), (by dsimp only; omega), fun i j => by dsimp only; rw [b1, flip]⟩
        · rw [if_pos (by simp only [if_true, Mat.initRows]; omega)]
          rw [hs] at a1 b1
          simp only [if_true, Mat.initRows] at a1 b1 ⊢
          refine ⟨_, rfl, (by dsimp only; omega), (by dsimp only; omega), fun i j => ?_⟩
          dsimp only
          rw [b1, show nib + 1 - 1 = nib by omega, flip]
      obtain ⟨c, X, hX, hc, vc⟩ := p1 (fun f => ⟨_, (hok f).choose_spec.1⟩)
      obtain ⟨X', e, x1, x2, _⟩ := hok .XC
      rw [hX] at e
      cases e
      refine ⟨c, ?_, fun f => ?_⟩
      · rw [hc, x1, x2]; rfl
      · obtain ⟨m, e, r1, r2, r3⟩ := hok f
        exact ⟨A f, B f, m, hA f, hB f, vc f m e, r1, r2, fun i j _ _ => r3 i j⟩
    · intro hne
      refine p2 ⟨.XC, .valueError, ?_⟩
      show catBA 0 (if stagI .XC then Mat.initRows else id) a b .XC = _
      rw [hv]
      unfold Mat.concat0
      rw [if_neg]
      have a1 := (sA .XC).2
      have b1 := (sB .XC).2
      simp [stagI, stagJ, Spec.nrows, Spec.ncols] at a1 b1 ⊢
      omega

/-! ## Theorems -/

theorem Joined.complete {nia nja nib njb : Nat} {e : Edge} {a b c : Grid F} (h : Spec.Joined nia nja nib njb e a b c) :
    Spec.Complete c (Spec.joinedSize nia nja nib njb e).1 (Spec.joinedSize nia nja nib njb e).2 := by
  intro f
  obtain ⟨A, B, C, _, _, h3, h4, h5, _⟩ := h f
  exact ⟨C, h3, h4, h5⟩

/-- **C46**: `stitch` succeeds only if `addfringe` does; then every entry is that of tile A (with fringe) or tile B at
the corresponding position, shared-edge entries being taken from tile A. -/
theorem C46_stitch_content [F64 F] [ZeroLaw F] (geod : Geod F) (strict : Bool) (fa fb : List Byte)
    (nia nja nib njb nic njc : Nat) (c : Grid F)
    (h : stitch geod strict fa nia nja fb nib njb = .ok (c, nic, njc)) :
    ∃ (ea eb : Edge) (a b : Grid F), addfringe geod strict fa nia nja fb nib njb = .ok (ea, eb, a) ∧
      readMitgrid fb nib njb strict = .ok b ∧ Spec.Opposite (ea, eb) ∧
      Spec.edgeCells nia nja ea = Spec.edgeCells nib njb eb ∧
      (nic, njc) = Spec.joinedSize nia nja nib njb ea ∧ Spec.Joined nia nja nib njb ea a b c := by
  unfold stitch at h
  cases ha : (addfringe geod strict fa nia nja fb nib njb : Py (Edge × Edge × Grid F)) with
  | error e => rw [ha] at h; cases h
  | ok r =>
    obtain ⟨ea, eb, a⟩ := r
    rw [ha, Py.ok_bind] at h
    dsimp only at h
    cases hb : (readMitgrid fb nib njb strict : Py (Grid F)) with
    | error e => rw [hb] at h; cases h
    | ok b =>
      rw [hb, Py.ok_bind] at h
      obtain ⟨ho, _⟩ := addfringe_fits geod strict fa fb nia nja nib njb ea eb a ha
      obtain ⟨p1, p2⟩ := join_spec ea eb ho a b nia nja nib njb
        (C43_addfringe_keeps geod strict fa fb nia nja nib njb ea eb a ha).1 (read_complete fb nib njb strict b hb)
      by_cases heq : Spec.edgeCells nia nja ea = Spec.edgeCells nib njb eb
      · obtain ⟨c', hc, hj⟩ := p1 heq
        rw [h] at hc
        injection hc with hc
        injection hc with e1 e2
        subst e1
        exact ⟨ea, eb, a, b, rfl, rfl, ho, heq, e2, hj⟩
      · obtain ⟨e, he⟩ := p2 heq
        rw [h] at he
        cases he

/-- **C45**: sizes, and the result can be written and read back unchanged. -/
theorem C45_stitch_sizes [F64 F] [LawfulF64 F] [ZeroLaw F] (geod : Geod F) (strict : Bool) (fa fb : List Byte)
    (nia nja nib njb nic njc : Nat) (c : Grid F)
    (h : stitch geod strict fa nia nja fb nib njb = .ok (c, nic, njc)) :
    ((nic = nia + nib ∧ njc = nja ∧ nja = njb) ∨ (nic = nia ∧ njc = nja + njb ∧ nia = nib)) ∧
    Spec.Complete c nic njc ∧
    ∀ old strict', ∃ bytes c', writeMitgrid old c nic njc = (bytes, .ok ()) ∧
      readMitgrid bytes nic njc strict' = .ok c' ∧ Spec.GridSame c c' := by
  obtain ⟨ea, eb, a, b, _, _, ho, hq, hs, hj⟩ := C46_stitch_content geod strict fa fb nia nja nib njb nic njc c h
  have hc := Joined.complete hj
  rw [← hs] at hc
  refine ⟨?_, hc, fun old strict' => C01_round_trip ZeroLaw.isZero_zero old c nic njc strict' hc⟩
  cases ea <;> cases eb <;> simp only [Spec.Opposite] at ho <;> simp only [Spec.edgeCells] at hq <;>
    injection hs with e1 e2
  · exact Or.inr ⟨e1, e2, hq⟩
  · exact Or.inr ⟨e1, e2, hq⟩
  · exact Or.inl ⟨e1, e2, hq⟩
  · exact Or.inl ⟨e1, e2, hq⟩

theorem sum_range_split {M : Type} [AddCommMonoid M] (f : Nat → M) (m n : Nat) :
    ∑ i ∈ Finset.range (m + n), f i = ∑ i ∈ Finset.range m, f i + ∑ i ∈ Finset.range n, f (m + i) :=
  Finset.sum_range_add f m n

/-- **C47**: the tracer-cell areas of the result add up to those of tile A (with fringe) and tile B.  `val` gives the numbers that the floats stand for,
so the sums are exact and the statement holds for doubles. -/
theorem C47_area_conserved {M : Type} [AddCommMonoid M] (val : F → M) [F64 F] [ZeroLaw F] (geod : Geod F) (strict : Bool) (fa fb : List Byte)
    (nia nja nib njb nic njc : Nat) (c : Grid F)
    (h : stitch geod strict fa nia nja fb nib njb = .ok (c, nic, njc)) :
    ∃ (ea eb : Edge) (a b : Grid F) (A B C : Mat F), addfringe geod strict fa nia nja fb nib njb = .ok (ea, eb, a) ∧
      readMitgrid fb nib njb strict = .ok b ∧ a .RAC = .arr A ∧ b .RAC = .arr B ∧ c .RAC = .arr C ∧
      ∑ i ∈ Finset.range nic, ∑ j ∈ Finset.range njc, val (C.get i j) =
        ∑ i ∈ Finset.range nia, ∑ j ∈ Finset.range nja, val (A.get i j) +
        ∑ i ∈ Finset.range nib, ∑ j ∈ Finset.range njb, val (B.get i j) := by
  obtain ⟨ea, eb, a, b, h1, h2, ho, hq, hs, hj⟩ := C46_stitch_content geod strict fa fb nia nja nib njb nic njc c h
  obtain ⟨A, B, C, r1, r2, r3, r4, r5, r6⟩ := hj .RAC
  refine ⟨ea, eb, a, b, A, B, C, h1, h2, r1, r2, r3, ?_⟩
  have e4 : C.rows = nic := by rw [r4, ← hs]; rfl
  have e5 : C.cols = njc := by rw [r5, ← hs]; rfl
  have v : ∀ i ∈ Finset.range nic, ∑ j ∈ Finset.range njc, val (C.get i j) =
      ∑ j ∈ Finset.range njc, val (Spec.joinedAt nia nja nib njb ea .RAC A B i j) := fun i hi =>
    Finset.sum_congr rfl fun j hj => congrArg val <| r6 i j (by have := Finset.mem_range.1 hi; omega)
      (by have := Finset.mem_range.1 hj; omega)
  rw [Finset.sum_congr rfl v]
  cases ea <;> cases eb <;> simp only [Spec.Opposite] at ho <;> simp only [Spec.edgeCells] at hq <;>
    injection hs with s1 s2 <;> subst s1 <;> subst s2 <;> subst hq <;> simp only [Spec.joinedAt]
  · rw [← Finset.sum_add_distrib]
    refine Finset.sum_congr rfl fun i _ => ?_
    rw [sum_range_split]
    congr 1
    · exact Finset.sum_congr rfl fun j hj => congrArg val (if_pos (Finset.mem_range.1 hj))
    · exact Finset.sum_congr rfl fun j _ => congrArg val ((if_neg (by simp only [Spec.ncols]; omega)).trans
        (by rw [show nja + j - nja = j by omega]))
  · rw [← Finset.sum_add_distrib]
    refine Finset.sum_congr rfl fun i _ => ?_
    rw [Nat.add_comm nja njb, sum_range_split, add_comm]
    congr 1
    · exact Finset.sum_congr rfl fun j _ => by rw [if_pos (by omega), show njb + j - njb = j by omega]
    · exact Finset.sum_congr rfl fun j hj => by
        rw [if_neg (by have := Finset.mem_range.1 hj; omega)]
  · rw [sum_range_split]
    congr 1
    · exact Finset.sum_congr rfl fun i hi => Finset.sum_congr rfl fun j _ => congrArg val (if_pos (Finset.mem_range.1 hi))
    · exact Finset.sum_congr rfl fun i _ => Finset.sum_congr rfl fun j _ =>
        congrArg val ((if_neg (by simp only [Spec.nrows]; omega)).trans (by rw [show nia + i - nia = i by omega]))
  · rw [Nat.add_comm nia nib, sum_range_split, add_comm]
    congr 1
    · exact Finset.sum_congr rfl fun i _ => Finset.sum_congr rfl fun j _ => by
        rw [if_pos (by omega), show nib + i - nib = i by omega]
    · exact Finset.sum_congr rfl fun i hi => Finset.sum_congr rfl fun j _ => by
        rw [if_neg (by have := Finset.mem_range.1 hi; omega)]

/-- The fields with terms that need cells on both sides of the seam. -/
def Spec.seamFields : Edge → List Field
  | .E | .W => [.DXC, .DXV, .RAW, .RAZ]
  | .N | .S => [.DYC, .DYU, .RAS, .RAZ]

/-- The `k`-th entry on tile A's edge `e`, as an index into tile A and into the stitched grid. -/
def Spec.seamA (nia nja : Nat) : Edge → Nat → Nat × Nat
  | .E, k => (nia, k)
  | .W, k => (0, k)
  | .N, k => (k, nja)
  | .S, k => (k, 0)
def Spec.seamC (nia nja nib njb : Nat) : Edge → Nat → Nat × Nat
  | .E, k => (nia, k)
  | .W, k => (nib, k)
  | .N, k => (k, nja)
  | .S, k => (k, njb)
def Spec.seamLen (nia nja : Nat) (f : Field) : Edge → Nat
  | .E | .W => Spec.ncols f nja
  | .N | .S => Spec.nrows f nia

/-- What the seam terms are: tile A's value if that is nonzero, else zero. -/
theorem C48_seam_terms_partial [F64 F] [ZeroLaw F] (geod : Geod F) (strict : Bool) (fa fb : List Byte)
    (nia nja nib njb nic njc : Nat) (c : Grid F)
    (h : stitch geod strict fa nia nja fb nib njb = .ok (c, nic, njc)) :
    ∃ (ea : Edge) (a0 : Grid F), readMitgrid fa nia nja strict = .ok a0 ∧
      (nic, njc) = Spec.joinedSize nia nja nib njb ea ∧
      ∀ f ∈ Spec.seamFields ea, ∃ A C, a0 f = .arr A ∧ c f = .arr C ∧
        ∀ k < Spec.seamLen nia nja f ea,
          C.get (Spec.seamC nia nja nib njb ea k).1 (Spec.seamC nia nja nib njb ea k).2 =
            if PyFloat.isZero (A.get (Spec.seamA nia nja ea k).1 (Spec.seamA nia nja ea k).2) then Arith.zero
            else A.get (Spec.seamA nia nja ea k).1 (Spec.seamA nia nja ea k).2 := by
  obtain ⟨ea, eb, a, b, h1, h2, ho, hq, hs, hj⟩ := C46_stitch_content geod strict fa fb nia nja nib njb nic njc c h
  obtain ⟨p1, p2, a0, b', A, B', M, wrap, hra, _, hA, _, _, _, _, _, hc, hv⟩ :=
    addfringe_success geod strict fa fb nia nja nib njb ea eb a h1
  refine ⟨ea, a0, hra, hs, fun f hf => ?_⟩
  obtain ⟨R, B, C, r1, r2, r3, r4, r5, r6⟩ := hj f
  obtain ⟨R', q1, q2⟩ := hv f
  rw [r1] at q1
  cases q1
  refine ⟨A f, C, hA f, r3, fun k hk => ?_⟩
  have key : ∀ i j, i < Spec.nrows f nia → j < Spec.ncols f nja → Spec.Undefined f nia nja i j →
      R.get i j = if PyFloat.isZero ((A f).get i j) then Arith.zero else (A f).get i j := by
    intro i j hi hj hu
    rw [q2 i j hi hj]
    by_cases hz : PyFloat.isZero ((A f).get i j) = true
    · rw [if_pos hz, if_pos hz]
      exact entry_undefined (Spec.halfTile geod wrap (A .XG) (A .YG) nia nja) _ _ f i j hu
    · rw [if_neg hz, if_neg hz]
  have st : (ea = .E ∨ ea = .W → ∀ n, Spec.nrows f n = n + 1) ∧ (ea = .N ∨ ea = .S → ∀ n, Spec.ncols f n = n + 1) := by
    cases ea <;> simp only [Spec.seamFields, List.mem_cons, List.not_mem_nil, or_false] at hf <;>
      rcases hf with rfl | rfl | rfl | rfl <;> simp [Spec.nrows, Spec.ncols]
  cases ea with
  | E =>
    simp only [Spec.seamFields] at hf
    simp only [Spec.seamLen] at hk
    simp only [Spec.joinedSize] at r4 r5
    simp only [Spec.seamA, Spec.seamC]
    have s1 := st.1 (by simp)
    rw [r6 _ _ (by rw [r4, s1]; omega) (by rw [r5]; omega)]
    simp only [Spec.joinedAt]
    rw [if_pos (by rw [s1]; omega)]
    exact key _ _ (by rw [s1]; omega) hk (.inl ⟨hf, .inr rfl⟩)
  | W =>
    simp only [Spec.seamFields] at hf
    simp only [Spec.seamLen] at hk
    simp only [Spec.joinedSize] at r4 r5
    simp only [Spec.seamA, Spec.seamC]
    have s1 := st.1 (by simp)
    rw [r6 _ _ (by rw [r4, s1]; omega) (by rw [r5]; omega)]
    simp only [Spec.joinedAt]
    rw [if_pos (Nat.le_refl _), Nat.sub_self]
    exact key _ _ (by rw [s1]; omega) hk (.inl ⟨hf, .inl rfl⟩)
  | N =>
    simp only [Spec.seamFields] at hf
    simp only [Spec.seamLen] at hk
    simp only [Spec.joinedSize] at r4 r5
    simp only [Spec.seamA, Spec.seamC]
    have s1 := st.2 (by simp)
    rw [r6 _ _ (by rw [r4]; omega) (by rw [r5, s1]; omega)]
    simp only [Spec.joinedAt]
    rw [if_pos (by rw [s1]; omega)]
    exact key _ _ hk (by rw [s1]; omega) (.inr ⟨hf, .inr rfl⟩)
  | S =>
    simp only [Spec.seamFields] at hf
    simp only [Spec.seamLen] at hk
    simp only [Spec.joinedSize] at r4 r5
    simp only [Spec.seamA, Spec.seamC]
    have s1 := st.2 (by simp)
    rw [r6 _ _ (by rw [r4]; omega) (by rw [r5, s1]; omega)]
    simp only [Spec.joinedAt]
    rw [if_pos (Nat.le_refl _), Nat.sub_self]
    exact key _ _ hk (by rw [s1]; omega) (.inr ⟨hf, .inl rfl⟩)

/-- **C48** is false: seam terms that are zero in tile A are zero in the stitched grid, whatever tile B is. -/
theorem C48_seam_terms_stay_zero [F64 F] [ZeroLaw F] (geod : Geod F) (strict : Bool) (fa fb : List Byte)
    (nia nja nib njb nic njc : Nat) (c : Grid F)
    (h : stitch geod strict fa nia nja fb nib njb = .ok (c, nic, njc)) :
    ∃ (ea : Edge) (a0 : Grid F), readMitgrid fa nia nja strict = .ok a0 ∧
      (nic, njc) = Spec.joinedSize nia nja nib njb ea ∧
      ∀ f ∈ Spec.seamFields ea, ∃ A C, a0 f = .arr A ∧ c f = .arr C ∧
        ∀ k < Spec.seamLen nia nja f ea,
          PyFloat.isZero (A.get (Spec.seamA nia nja ea k).1 (Spec.seamA nia nja ea k).2) = true →
          C.get (Spec.seamC nia nja nib njb ea k).1 (Spec.seamC nia nja nib njb ea k).2 = Arith.zero := by
  obtain ⟨ea, a0, h1, h2, h3⟩ := C48_seam_terms_partial geod strict fa fb nia nja nib njb nic njc c h
  refine ⟨ea, a0, h1, h2, fun f hf => ?_⟩
  obtain ⟨A, C, h4, h5, h6⟩ := h3 f hf
  refine ⟨A, C, h4, h5, fun k hk hz => ?_⟩
  rw [h6 k hk, if_pos hz]

theorem FirstEdge_unique (p : Spec.Corner → Prop) (e e' : Edge) (h : Spec.FirstEdge p e) (h' : Spec.FirstEdge p e') :
    e = e' := by
  obtain ⟨h1, h2⟩ := h
  obtain ⟨h1', h2'⟩ := h'
  rcases Nat.lt_trichotomy (Spec.rank e) (Spec.rank e') with hh | hh | hh
  · exact absurd h1 (h2' e hh)
  · cases e <;> cases e' <;> first | rfl | exact absurd hh (by decide)
  · exact absurd h1' (h2 e' hh)

/-- **C49**: if the matched edges (the first ones with both corners near the other tile) have different numbers of
points, `stitch` raises. -/
theorem C49_unequal_edges_raise [F64 F] [ZeroLaw F] [FloatTotal F] (geod : Geod F) (strict : Bool) (fa fb : List Byte)
    (nia nja nib njb : Nat) (a b : Grid F) (aXG aYG bXG bYG : Mat F) (ae be : Edge)
    (hra : readMitgrid fa nia nja strict = .ok a) (hrb : readMitgrid fb nib njb strict = .ok b)
    (hax : a .XG = .arr aXG) (hay : a .YG = .arr aYG) (hbx : b .XG = .arr bXG) (hby : b .YG = .arr bYG)
    (hfin : PyFloat.le PyFloat.inf (Spec.tolerance geod aXG aYG bXG bYG) = false)
    (h1 : Spec.FirstEdge (Spec.NearA geod aXG aYG bXG bYG) ae)
    (h2 : Spec.FirstEdge (Spec.NearB geod aXG aYG bXG bYG) be)
    (hne : Spec.along aXG ae ≠ Spec.along bXG be) :
    ∃ e, (stitch geod strict fa nia nja fb nib njb : Py (Grid F × Nat × Nat)) = .error e := by
  cases hr : (stitch geod strict fa nia nja fb nib njb : Py (Grid F × Nat × Nat)) with
  | error e => exact ⟨e, rfl⟩
  | ok r =>
    obtain ⟨c, nic, njc⟩ := r
    obtain ⟨ea, eb, a', b', ha, hb, _, hq, _, _⟩ := C46_stitch_content geod strict fa fb nia nja nib njb nic njc c hr
    obtain ⟨_, _, a0, b0, A, B, M, _, hra', hrb', hA, hB, hm, e1, e2, _⟩ :=
      addfringe_success geod strict fa fb nia nja nib njb ea eb a' ha
    rw [hra] at hra'
    cases hra'
    rw [hrb] at hrb'
    cases hrb'
    have x1 := hA .XG; rw [hax] at x1
    have x2 := hA .YG; rw [hay] at x2
    have x3 := hB .XG; rw [hbx] at x3
    have x4 := hB .YG; rw [hby] at x4
    injection x1 with x1
    injection x2 with x2
    injection x3 with x3
    injection x4 with x4
    subst x1; subst x2; subst x3; subst x4
    have shape : ∀ (g : Grid F) (m n : Nat) (f : Field) (X : Mat F), Spec.Complete g m n → g f = .arr X →
        X.rows = Spec.nrows f m ∧ X.cols = Spec.ncols f n := by
      intro g m n f X hc hx
      obtain ⟨X', e, r⟩ := hc f
      rw [hx] at e
      cases e
      exact r
    have ca := read_complete fa nia nja strict a hra
    have cb := read_complete fb nib njb strict b hrb
    obtain ⟨a1, a2⟩ := shape a nia nja .XG _ ca (hA _)
    obtain ⟨a3, a4⟩ := shape a nia nja .YG _ ca (hA _)
    obtain ⟨b1, b2⟩ := shape b nib njb .XG _ cb (hB _)
    obtain ⟨b3, b4⟩ := shape b nib njb .YG _ cb (hB _)
    obtain ⟨f1, f2⟩ := C41_reported_edges geod _ _ _ _ M ⟨a3.trans a1.symm, a4.trans a2.symm⟩
      ⟨b3.trans b1.symm, b4.trans b2.symm⟩ hfin hm
    rw [e1] at f1
    rw [e2] at f2
    cases FirstEdge_unique _ _ _ h1 f1
    cases FirstEdge_unique _ _ _ h2 f2
    rw [along_cells _ nia nja a1 a2, along_cells _ nib njb b1 b2, hq] at hne
    exact absurd rfl hne

/-- **C66**: the direction of the edges is not checked: tile A's east edge is matched with tile B's west edge also when
their end points coincide crosswise (A's south-east corner is B's north-west corner and vice versa). -/
theorem C66_crossed_edges_accepted [FloatTotal F] (geod : Geod F) (aXG aYG bXG bYG : Mat F)
    (ha : Spec.Tile2 aXG aYG) (hb : Spec.Tile2 bXG bYG)
    (hfin : PyFloat.le PyFloat.inf (Spec.tolerance geod aXG aYG bXG bYG) = false)
    (h1 : Spec.cornerPt aXG aYG (true, false) = Spec.cornerPt bXG bYG (false, true))
    (h2 : Spec.cornerPt aXG aYG (true, true) = Spec.cornerPt bXG bYG (false, false))
    (hself : ∀ k, PyFloat.le (Spec.cdist geod (Spec.cornerPt aXG aYG (true, k)) (Spec.cornerPt aXG aYG (true, k)))
      (Spec.tolerance geod aXG aYG bXG bYG) = true)
    (h3 : ¬ Spec.NearA geod aXG aYG bXG bYG (false, false))
    (hf : Spec.Fits aXG bXG .E .W) :
    ∃ m, matchedges geod aXG aYG bXG bYG = .ok m ∧ m.aEdge = .E ∧ m.bEdge = .W := by
  refine C41_accepts geod aXG aYG bXG bYG .E .W ha hb hfin ⟨?_, ?_⟩ ⟨?_, ?_⟩ trivial hf
  · rintro ⟨a, b⟩ hc
    cases a <;> cases b <;> first | (exact absurd hc (by decide)) | skip
    · exact ⟨(false, true), by rw [← h1]; exact hself _⟩
    · exact ⟨(false, false), by rw [← h2]; exact hself _⟩
  · intro e' he hn
    cases e' <;> first | (exact absurd he (by decide)) | skip
    exact h3 (hn (false, false) rfl)
  · rintro ⟨a, b⟩ hc
    cases a <;> cases b <;> first | (exact absurd hc (by decide)) | skip
    · exact ⟨(true, true), by rw [← h2]; exact hself _⟩
    · exact ⟨(true, false), by rw [← h1]; exact hself _⟩
  · intro e' he hn
    cases e' <;> exact absurd he (by decide)

/-- **C67**: the command line tools: if the computation fails the output file is left as it was; otherwise it is
replaced by a file of exactly the documented length from which the result can be read back. -/
theorem C67_sgaddfringe [F64 F] [LawfulF64 F] [ZeroLaw F] (geod : Geod F) (strict : Bool) (fa fb : List Byte)
    (nia nja nib njb : Nat) (old : List Byte) :
    (∀ e, (addfringe geod strict fa nia nja fb nib njb : Py (Edge × Edge × Grid F)) = .error e →
      addfringeMain (F := F) geod strict fa nia nja fb nib njb old = (old, .error e)) ∧
    (∀ ea eb (g : Grid F), addfringe geod strict fa nia nja fb nib njb = .ok (ea, eb, g) →
      ∃ bytes, addfringeMain (F := F) geod strict fa nia nja fb nib njb old = (bytes, .ok ()) ∧
        bytes.length = 8 * Spec.nDoubles nia nja ∧
        ∀ strict', ∃ g', readMitgrid bytes nia nja strict' = .ok g' ∧ Spec.GridSame g g') := by
  constructor
  · intro e he
    unfold addfringeMain
    rw [he]
  · intro ea eb g hg
    have hc := (C43_addfringe_keeps geod strict fa fb nia nja nib njb ea eb g hg).1
    obtain ⟨bytes, hw, hlen, _⟩ := C02_byte_layout old g nia nja hc.writable
    refine ⟨bytes, by unfold addfringeMain; rw [hg]; exact hw, hlen, fun strict' => ?_⟩
    obtain ⟨bytes', g', hw', hr, hs⟩ := C01_round_trip ZeroLaw.isZero_zero old g nia nja strict' hc
    rw [hw] at hw'
    cases hw'
    exact ⟨g', hr, hs⟩

theorem C67_sgstitch [F64 F] [LawfulF64 F] [ZeroLaw F] (geod : Geod F) (strict : Bool) (fa fb : List Byte)
    (nia nja nib njb : Nat) (old : List Byte) :
    (∀ e, (stitch geod strict fa nia nja fb nib njb : Py (Grid F × Nat × Nat)) = .error e →
      stitchMain (F := F) geod strict fa nia nja fb nib njb old = (old, .error e)) ∧
    (∀ (c : Grid F) nic njc, stitch geod strict fa nia nja fb nib njb = .ok (c, nic, njc) →
      ∃ bytes, stitchMain (F := F) geod strict fa nia nja fb nib njb old = (bytes, .ok ()) ∧
        bytes.length = 8 * Spec.nDoubles nic njc ∧
        ∀ strict', ∃ c', readMitgrid bytes nic njc strict' = .ok c' ∧ Spec.GridSame c c') := by
  constructor
  · intro e he
    unfold stitchMain
    rw [he]
  · intro c nic njc hg
    have hc := (C45_stitch_sizes geod strict fa fb nia nja nib njb nic njc c hg).2.1
    obtain ⟨bytes, hw, hlen, _⟩ := C02_byte_layout old c nic njc hc.writable
    refine ⟨bytes, by unfold stitchMain; rw [hg]; exact hw, hlen, fun strict' => ?_⟩
    obtain ⟨bytes', g', hw', hr, hs⟩ := C01_round_trip ZeroLaw.isZero_zero old c nic njc strict' hc
    rw [hw] at hw'
    cases hw'
    exact ⟨g', hr, hs⟩

/-! ## Concrete cases -/

def exGet (g : Grid Toy) (f : Field) (i j : Nat) : Toy :=
  match g f with
  | .arr M => M.get i j
  | _ => ⟨Toy.nanBits⟩

/-- Sizes of a stitched grid and some of its entries. -/
def exView (r : Py (Grid Toy × Nat × Nat)) (ps : List (Field × Nat × Nat)) : Option (Nat × Nat × List Toy) :=
  match r with
  | .ok (g, m, n) => some (m, n, ps.map fun p => exGet g p.1 p.2.1 p.2.2)
  | .error _ => none

set_option maxRecDepth 40000 in
/-- Two 1 x 1 tiles side by side: a 2 x 1 tile; RAC is 7, 7, the cross-seam term DXC(1,0) is zero. -/
example : exView (stitch Toy.geod true (exFile 0 0) 1 1 (exFile 10 0) 1 1)
    [(.RAC, 0, 0), (.RAC, 1, 0), (.DXC, 1, 0), (.XG, 0, 0), (.XG, 1, 1), (.XG, 2, 1)] =
    some (2, 1, [7, 7, 0, 0, 10, 20]) := by decide +kernel

set_option maxRecDepth 40000 in
/-- The other three directions. -/
example : exView (stitch Toy.geod true (exFile 10 0) 1 1 (exFile 0 0) 1 1)
      [(.XG, 0, 0), (.XG, 1, 1), (.XG, 2, 1)] = some (2, 1, [0, 10, 20]) ∧
    exView (stitch Toy.geod true (exFile 0 0) 1 1 (exFile 0 10) 1 1)
      [(.YG, 0, 0), (.YG, 1, 1), (.YG, 1, 2)] = some (1, 2, [0, 10, 20]) ∧
    exView (stitch Toy.geod true (exFile 0 10) 1 1 (exFile 0 0) 1 1)
      [(.YG, 0, 0), (.YG, 1, 1), (.YG, 1, 2)] = some (1, 2, [0, 10, 20]) := by decide +kernel

/-- C49: a 1 x 1 tile and the 1 x 2 tile to its east: the edges match, but have 2 and 3 points (the other hypotheses
follow by `C41_reported_edges`). -/
example : (matchedges Toy.geod (exTileX 2 2 0) (exTileY 2 2 0) (exTileX 2 3 10) ⟨2, 3, fun _ j => .ofInt (5 * j)⟩).toOption.map
    (fun m => (m.aEdge, m.bEdge, Spec.along (exTileX 2 2 0) m.aEdge, Spec.along (exTileX 2 3 10) m.bEdge)) =
    some (.E, .W, 2, 3) := by decide +kernel

/-- C66: tile B upside down. -/
example : Spec.cornerPt (exTileX 2 2 0) (exTileY 2 2 0) (true, false) =
      Spec.cornerPt (exTileX 2 2 10) ⟨2, 2, fun _ j => Toy.ofInt (10 - 10 * j)⟩ (false, true) ∧
    (matchedges Toy.geod (exTileX 2 2 0) (exTileY 2 2 0) (exTileX 2 2 10)
      ⟨2, 2, fun _ j => Toy.ofInt (10 - 10 * j)⟩).toOption.map (fun m => (m.aEdge, m.bEdge)) = some (.E, .W) := by
  decide +kernel

end SG
