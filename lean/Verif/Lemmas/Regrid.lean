import Verif.Model.Regrid
import Verif.Props.Nearest
import Verif.Props.MkGrid
/-! Lemmas about `regrid`: quarter turns, the alignment loop, the copy loop. -/

set_option linter.unusedSectionVars false

namespace SG
variable {F : Type} [PyFloat F]

/-- One quarter turn of `XG` and `YG` together. -/
def turn (s : NArr F × NArr F) : NArr F × NArr F := (s.1.rot90, s.2.rot90)

/-- `k` quarter turns. -/
def turns : Nat → NArr F × NArr F → NArr F × NArr F
  | 0, s => s
  | k + 1, s => turns k (turn s)

theorem turns_add (k l : Nat) (s : NArr F × NArr F) : turns (k + l) s = turns l (turns k s) := by
  induction k generalizing s with
  | zero => rw [Nat.zero_add]; rfl
  | succ k ih => rw [Nat.succ_add]; exact ih (turn s)

theorem turns_succ (k : Nat) (s : NArr F × NArr F) : turns (k + 1) s = turn (turns k s) :=
  turns_add k 1 s

theorem turns_wf (k : Nat) (s : NArr F × NArr F) (h : s.1.WF) : (turns k s).1.WF := by
  induction k generalizing s with
  | zero => exact h
  | succ k ih => exact ih _ (NArr.rot90_wf h)

/-! ### where `nearest` can point -/

/-- A located point: an index pair inside the matrix. -/
def InRange (m : Mat F) (p : Int × Int) : Prop :=
  0 ≤ p.1 ∧ p.1 < m.rows ∧ 0 ≤ p.2 ∧ p.2 < m.cols

theorem nearest_range (geod : Geod F) (lon lat : F) (lons lats : NArr F) (hw : lons.WF)
    (i j : Int) (d : F) (h : nearest geod lon lat lons lats = .ok (i, j, d)) :
    (i = -1 ∧ j = -1) ∨ InRange lons.mat (i, j) := by
  unfold nearest at h
  split at h
  · cases h
  split at h
  · cases h
  have H : ∀ (l : List (Nat × Nat)) (s : Int × Int × F), (∀ p ∈ l, p ∈ lons.order) →
      ((s.1 = -1 ∧ s.2.1 = -1) ∨ InRange lons.mat (s.1, s.2.1)) →
      (((l.foldl (nearestStep geod lon lat lons.mat lats.mat) s).1 = -1 ∧
        (l.foldl (nearestStep geod lon lat lons.mat lats.mat) s).2.1 = -1) ∨
        InRange lons.mat ((l.foldl (nearestStep geod lon lat lons.mat lats.mat) s).1,
          (l.foldl (nearestStep geod lon lat lons.mat lats.mat) s).2.1)) := by
    intro l
    induction l with
    | nil => intro s _ hs; exact hs
    | cons p t ih =>
      intro s hp hs
      rw [List.foldl_cons]
      apply ih _ (fun q hq => hp q (by simp [hq]))
      unfold nearestStep
      dsimp only
      split
      · right
        have := (hw.mem p).1 (hp p (by simp))
        unfold InRange; dsimp only; omega
      · exact hs
  have := H lons.order (-1, -1, PyFloat.c1e10) (fun _ h => h) (.inl ⟨rfl, rfl⟩)
  injection h with h
  rw [h] at this
  exact this

/-- What a quarter turn does to a located or unlocated point. -/
def rotP (cols : Nat) (p : Int × Int) : Int × Int :=
  if p.1 = -1 then p else ((cols : Int) - 1 - p.2, p.1)

def rotC (cols : Nat) (c : Corners) : Corners := (rotP cols c.1, rotP cols c.2)

theorem locate_turn (geod : Geod F) (lon1 lat1 lon2 lat2 : F) (s : NArr F × NArr F) (hw : s.1.WF) :
    locate geod lon1 lat1 lon2 lat2 (turn s) =
      (locate geod lon1 lat1 lon2 lat2 s).map (rotC s.1.mat.cols) := by
  have hp : ∀ r : Int × Int × F, ((Spec.rotIdx s.1.mat.cols r).1, (Spec.rotIdx s.1.mat.cols r).2.1) =
      rotP s.1.mat.cols (r.1, r.2.1) := by
    intro r
    unfold Spec.rotIdx rotP
    dsimp only
    split <;> rfl
  unfold locate turn
  dsimp only
  rw [C11_rot90_equivariant geod lon1 lat1 s.1 s.2 hw, C11_rot90_equivariant geod lon2 lat2 s.1 s.2 hw]
  cases nearest geod lon1 lat1 s.1 s.2 with
  | error e => rfl
  | ok a =>
    cases nearest geod lon2 lat2 s.1 s.2 with
    | error e => rfl
    | ok b =>
      show (Except.ok (_, _) : Py Corners) = .ok (rotP _ _, rotP _ _)
      rw [hp, hp]

theorem locate_cases (geod : Geod F) (lon1 lat1 lon2 lat2 : F) (s : NArr F × NArr F) (hw : s.1.WF)
    (c : Corners) (h : locate geod lon1 lat1 lon2 lat2 s = .ok c) :
    (c.1 = (-1, -1) ∨ InRange s.1.mat c.1) ∧ (c.2 = (-1, -1) ∨ InRange s.1.mat c.2) := by
  unfold locate at h
  cases h1 : nearest geod lon1 lat1 s.1 s.2 with
  | error e => rw [h1] at h; cases h
  | ok a =>
    cases h2 : nearest geod lon2 lat2 s.1 s.2 with
    | error e => rw [h1, h2] at h; cases h
    | ok b =>
      rw [h1, h2] at h
      injection h with h
      subst h
      obtain ⟨ai, aj, ad⟩ := a
      obtain ⟨bi, bj, bd⟩ := b
      refine ⟨?_, ?_⟩
      · rcases nearest_range geod lon1 lat1 s.1 s.2 hw ai aj ad h1 with ⟨rfl, rfl⟩ | h
        · exact .inl rfl
        · exact .inr h
      · rcases nearest_range geod lon2 lat2 s.1 s.2 hw bi bj bd h2 with ⟨rfl, rfl⟩ | h
        · exact .inl rfl
        · exact .inr h

theorem rotP_inRange (m : Mat F) (p : Int × Int) (h : InRange m p) :
    rotP m.cols p = ((m.cols : Int) - 1 - p.2, p.1) ∧ InRange m.rot90 (rotP m.cols p) := by
  have e : rotP m.cols p = ((m.cols : Int) - 1 - p.2, p.1) := by
    unfold rotP; rw [if_neg]; unfold InRange at h; omega
  refine ⟨e, ?_⟩
  rw [e]
  unfold InRange at *
  show _ ∧ _ < (m.cols : Int) ∧ _ ∧ _ < (m.rows : Int)
  dsimp only; omega

/-- Both corners located, in different rows and different columns. -/
structure Diagonal (s : NArr F × NArr F) (c : Corners) : Prop where
  nw : InRange s.1.mat c.1
  se : InRange s.1.mat c.2
  hi : c.1.1 ≠ c.2.1
  hj : c.1.2 ≠ c.2.2

theorem aligned_iff (c : Corners) : aligned c = true ↔ c.2.2 < c.1.2 ∧ c.1.1 < c.2.1 := by
  unfold aligned; simp only [Bool.and_eq_true, decide_eq_true_eq, gt_iff_lt]

theorem diagonal_turn (s : NArr F × NArr F) (c : Corners) (h : Diagonal s c) :
    Diagonal (turn s) (rotC s.1.mat.cols c) ∧
      rotC s.1.mat.cols c = (((s.1.mat.cols : Int) - 1 - c.1.2, c.1.1),
        ((s.1.mat.cols : Int) - 1 - c.2.2, c.2.1)) := by
  obtain ⟨e1, r1⟩ := rotP_inRange s.1.mat c.1 h.nw
  obtain ⟨e2, r2⟩ := rotP_inRange s.1.mat c.2 h.se
  have hi := h.hi
  have hj := h.hj
  refine ⟨⟨r1, r2, ?_, ?_⟩, ?_⟩
  · show (rotP _ _).1 ≠ (rotP _ _).1
    rw [e1, e2]; dsimp only; omega
  · show (rotP _ _).2 ≠ (rotP _ _).2
    rw [e1, e2]; exact hi
  · unfold rotC; rw [e1, e2]

theorem align_stop (geod : Geod F) (lon1 lat1 lon2 lat2 : F) (n : Nat) (s : NArr F × NArr F) (c : Corners)
    (h : aligned c = true) : align geod lon1 lat1 lon2 lat2 (n + 1) s c = some (s, .ok c) := by
  unfold align; rw [if_pos h]

theorem align_turn (geod : Geod F) (lon1 lat1 lon2 lat2 : F) (n : Nat) (s : NArr F × NArr F) (c : Corners)
    (hw : s.1.WF) (hl : locate geod lon1 lat1 lon2 lat2 s = .ok c) (h : aligned c = false) :
    align geod lon1 lat1 lon2 lat2 (n + 1) s c =
      align geod lon1 lat1 lon2 lat2 n (turn s) (rotC s.1.mat.cols c) := by
  have := locate_turn geod lon1 lat1 lon2 lat2 s hw
  rw [hl] at this
  conv => lhs; unfold align
  rw [if_neg (by rw [h]; simp)]
  show (match locate geod lon1 lat1 lon2 lat2 (turn s) with
    | .error e => some (turn s, Except.error e)
    | .ok c' => align geod lon1 lat1 lon2 lat2 n (turn s) c') = _
  rw [this]
  rfl

/-- `k` more turns until aligned. -/
def AlignsAfter (geod : Geod F) (lon1 lat1 lon2 lat2 : F) (k : Nat) (s : NArr F × NArr F) (c c' : Corners) :
    Prop :=
  Diagonal (turns k s) c' ∧ aligned c' = true ∧
    locate geod lon1 lat1 lon2 lat2 (turns k s) = .ok c' ∧
    ∀ n, align geod lon1 lat1 lon2 lat2 (k + n + 1) s c = some (turns k s, .ok c')

theorem alignsAfter_zero (geod : Geod F) (lon1 lat1 lon2 lat2 : F) (s : NArr F × NArr F) (c : Corners)
    (hd : Diagonal s c) (hl : locate geod lon1 lat1 lon2 lat2 s = .ok c) (h : aligned c = true) :
    AlignsAfter geod lon1 lat1 lon2 lat2 0 s c c :=
  ⟨hd, h, hl, fun _ => align_stop _ _ _ _ _ _ _ _ h⟩

theorem alignsAfter_succ (geod : Geod F) (lon1 lat1 lon2 lat2 : F) (k : Nat) (s : NArr F × NArr F)
    (c c' : Corners) (hw : s.1.WF) (hl : locate geod lon1 lat1 lon2 lat2 s = .ok c)
    (h : aligned c = false)
    (hk : AlignsAfter geod lon1 lat1 lon2 lat2 k (turn s) (rotC s.1.mat.cols c) c') :
    AlignsAfter geod lon1 lat1 lon2 lat2 (k + 1) s c c' := by
  obtain ⟨a, b, d, e⟩ := hk
  refine ⟨a, b, d, fun n => ?_⟩
  have : k + 1 + n + 1 = (k + n + 1) + 1 := by omega
  rw [this, align_turn _ _ _ _ _ _ _ _ hw hl h, e n]
  rfl

theorem locate_turn_ok (geod : Geod F) (lon1 lat1 lon2 lat2 : F) (s : NArr F × NArr F) (hw : s.1.WF)
    (c : Corners) (hl : locate geod lon1 lat1 lon2 lat2 s = .ok c) :
    locate geod lon1 lat1 lon2 lat2 (turn s) = .ok (rotC s.1.mat.cols c) := by
  rw [locate_turn _ _ _ _ _ _ hw, hl]; rfl

/-- At most three turns align two located diagonal corners. -/
theorem align_terminates (geod : Geod F) (lon1 lat1 lon2 lat2 : F) (s : NArr F × NArr F) (c : Corners)
    (hw : s.1.WF) (hl : locate geod lon1 lat1 lon2 lat2 s = .ok c) (hd : Diagonal s c) :
    ∃ k c', k ≤ 3 ∧ AlignsAfter geod lon1 lat1 lon2 lat2 k s c c' := by
  cases h0 : aligned c with
  | true => exact ⟨0, c, by omega, alignsAfter_zero _ _ _ _ _ _ _ hd hl h0⟩
  | false =>
    obtain ⟨d1, e1⟩ := diagonal_turn s c hd
    have w1 : (turn s).1.WF := NArr.rot90_wf hw
    have l1 := locate_turn_ok _ _ _ _ _ _ hw _ hl
    cases h1 : aligned (rotC s.1.mat.cols c) with
    | true => exact ⟨1, _, by omega, alignsAfter_succ _ _ _ _ _ _ _ _ _ hw hl h0
        (alignsAfter_zero _ _ _ _ _ _ _ d1 l1 h1)⟩
    | false =>
      obtain ⟨d2, e2⟩ := diagonal_turn _ _ d1
      have w2 : (turn (turn s)).1.WF := NArr.rot90_wf w1
      have l2 := locate_turn_ok _ _ _ _ _ _ w1 _ l1
      cases h2 : aligned (rotC (turn s).1.mat.cols (rotC s.1.mat.cols c)) with
      | true => exact ⟨2, _, by omega, alignsAfter_succ _ _ _ _ _ _ _ _ _ hw hl h0
          (alignsAfter_succ _ _ _ _ _ _ _ _ _ w1 l1 h1 (alignsAfter_zero _ _ _ _ _ _ _ d2 l2 h2))⟩
      | false =>
        obtain ⟨d3, e3⟩ := diagonal_turn _ _ d2
        have l3 := locate_turn_ok _ _ _ _ _ _ w2 _ l2
        have h3 : aligned (rotC (turn (turn s)).1.mat.cols
            (rotC (turn s).1.mat.cols (rotC s.1.mat.cols c))) = true := by
          rw [← Bool.not_eq_true, aligned_iff] at h0 h1 h2
          rw [aligned_iff]
          rw [e1] at h1
          rw [e2, e1] at h2
          rw [e3, e2, e1]
          dsimp only at *
          have := hd.hi
          have := hd.hj
          omega
        exact ⟨3, _, by omega, alignsAfter_succ _ _ _ _ _ _ _ _ _ hw hl h0
          (alignsAfter_succ _ _ _ _ _ _ _ _ _ w1 l1 h1
            (alignsAfter_succ _ _ _ _ _ _ _ _ _ w2 l2 h2 (alignsAfter_zero _ _ _ _ _ _ _ d3 l3 h3)))⟩

/-- Exactly one corner located. -/
def OneLocated (s : NArr F × NArr F) (c : Corners) : Prop :=
  (c.1 = (-1, -1) ∧ InRange s.1.mat c.2) ∨ (InRange s.1.mat c.1 ∧ c.2 = (-1, -1))

theorem oneLocated_turn (s : NArr F × NArr F) (c : Corners) (h : OneLocated s c) :
    OneLocated (turn s) (rotC s.1.mat.cols c) := by
  rcases h with ⟨h1, h2⟩ | ⟨h1, h2⟩
  · left
    refine ⟨?_, (rotP_inRange _ _ h2).2⟩
    show rotP _ c.1 = _
    rw [h1]; rfl
  · right
    refine ⟨(rotP_inRange _ _ h1).2, ?_⟩
    show rotP _ c.2 = _
    rw [h2]; rfl

theorem oneLocated_not_aligned (s : NArr F × NArr F) (c : Corners) (h : OneLocated s c) :
    aligned c = false := by
  rw [← Bool.not_eq_true, aligned_iff]
  rcases h with ⟨h1, h2⟩ | ⟨h1, h2⟩
  · rw [h1]; unfold InRange at h2; dsimp only; omega
  · rw [h2]; unfold InRange at h1; dsimp only; omega

theorem align_hangs (geod : Geod F) (lon1 lat1 lon2 lat2 : F) (fuel : Nat) (s : NArr F × NArr F)
    (c : Corners) (hw : s.1.WF) (hl : locate geod lon1 lat1 lon2 lat2 s = .ok c)
    (h : OneLocated s c) : align geod lon1 lat1 lon2 lat2 fuel s c = none := by
  induction fuel generalizing s c with
  | zero => rfl
  | succ n ih =>
    rw [align_turn _ _ _ _ _ _ _ _ hw hl (oneLocated_not_aligned s c h)]
    exact ih _ _ (NArr.rot90_wf hw) (locate_turn_ok _ _ _ _ _ _ hw _ hl) (oneLocated_turn s c h)

/-! ### four turns are the identity (on observable elements) -/

theorem rot4_same (m : Mat F) : m.rot90.rot90.rot90.rot90.Same m := by
  refine ⟨rfl, rfl, fun i j hi hj => ?_⟩
  show m.get (m.rows - 1 - (m.rows - 1 - i)) (m.cols - 1 - (m.cols - 1 - j)) = _
  have hi' : i < m.rows := hi
  have hj' : j < m.cols := hj
  have : m.rows - 1 - (m.rows - 1 - i) = i := by omega
  have h2 : m.cols - 1 - (m.cols - 1 - j) = j := by omega
  rw [this, h2]

theorem rotC_four (s : NArr F × NArr F) (c : Corners) (h : Diagonal s c) :
    rotC (turns 3 s).1.mat.cols (rotC (turns 2 s).1.mat.cols
      (rotC (turns 1 s).1.mat.cols (rotC s.1.mat.cols c))) = c := by
  obtain ⟨d1, e1⟩ := diagonal_turn s c h
  obtain ⟨d2, e2⟩ := diagonal_turn _ _ d1
  obtain ⟨d3, e3⟩ := diagonal_turn _ _ d2
  obtain ⟨d4, e4⟩ := diagonal_turn _ _ d3
  show rotC (turn (turn (turn s))).1.mat.cols (rotC (turn (turn s)).1.mat.cols
      (rotC (turn s).1.mat.cols (rotC s.1.mat.cols c))) = c
  rw [e4, e3, e2, e1]
  have q3 : (turn (turn (turn s))).1.mat.cols = s.1.mat.rows := rfl
  have q2 : (turn (turn s)).1.mat.cols = s.1.mat.cols := rfl
  have q1 : (turn s).1.mat.cols = s.1.mat.rows := rfl
  rw [q3, q2, q1]
  obtain ⟨⟨a, b⟩, ⟨a', b'⟩⟩ := c
  simp only [Prod.mk.injEq]
  omega

/-! ### the copy loop only reads the block -/

theorem foldlM_congr {σ β : Type} (l : List β) (f g : σ → β → Py σ) (s : σ)
    (h : ∀ b ∈ l, ∀ s, f s b = g s b) : l.foldlM f s = l.foldlM g s := by
  induction l generalizing s with
  | nil => rfl
  | cons a t ih =>
    rw [List.foldlM_cons, List.foldlM_cons, h a (by simp)]
    congr 1
    funext s'
    exact ih s' (fun b hb => h b (by simp [hb]))

theorem forIJ_congr {σ : Type} (is js : List Nat) (f g : σ → Nat → Nat → Py σ) (s : σ)
    (h : ∀ i ∈ is, ∀ j ∈ js, ∀ s, f s i j = g s i j) : forIJ is js f s = forIJ is js g s := by
  unfold forIJ
  exact foldlM_congr _ _ _ _ fun i hi s => foldlM_congr _ _ _ _ fun j hj s => h i hi j hj s

theorem regridBlock_congr (geod : Geod F) (xg yg xg' yg' : Mat F) (c : Corners) (lonSub latSub : Int)
    (hx : xg.Same xg') (hy : yg.Same yg') (hr : yg.rows = xg.rows) (hc : yg.cols = xg.cols)
    (h1 : InRange xg c.1) (h2 : InRange xg c.2) :
    regridBlock geod xg yg c lonSub latSub = regridBlock geod xg' yg' c lonSub latSub := by
  unfold regridBlock
  dsimp only
  have r1 : (xg'.strided (min c.1.1 c.2.1).toNat (max c.1.1 c.2.1 + 1).toNat 1
      (min c.1.2 c.2.2).toNat (max c.1.2 c.2.2 + 1).toNat 1).rows =
      (xg.strided (min c.1.1 c.2.1).toNat (max c.1.1 c.2.1 + 1).toNat 1
      (min c.1.2 c.2.2).toNat (max c.1.2 c.2.2 + 1).toNat 1).rows := by
    unfold Mat.strided; rw [hx.1]
  have r2 : (xg'.strided (min c.1.1 c.2.1).toNat (max c.1.1 c.2.1 + 1).toNat 1
      (min c.1.2 c.2.2).toNat (max c.1.2 c.2.2 + 1).toNat 1).cols =
      (xg.strided (min c.1.1 c.2.1).toNat (max c.1.1 c.2.1 + 1).toNat 1
      (min c.1.2 c.2.2).toNat (max c.1.2 c.2.2 + 1).toNat 1).cols := by
    unfold Mat.strided; rw [hx.2.1]
  rw [r1, r2]
  congr 1; funext cx
  congr 1; funext cy
  congr 1
  apply forIJ_congr
  intro i hi j hj s
  have hi' := List.mem_range.1 hi
  have hj' := List.mem_range.1 hj
  simp only [Mat.strided, sliceLen_one] at hi' hj'
  unfold InRange at h1 h2
  simp only [Mat.strided, Nat.mul_one]
  rw [hx.2.2 _ _ (by omega) (by omega), hy.2.2 _ _ (by omega) (by omega)]


/-! ### steps 1–3 in closed form -/

/-- Owner of a compute grid point in the copy loop. -/
def copyOwner (p q D E : Nat) (r c : Nat) : Option (Nat × Nat) :=
  if 1 ≤ r ∧ 1 ≤ c ∧ (r - 1) % D = 0 ∧ (c - 1) % E = 0 ∧ (r - 1) / D ≤ p ∧ (c - 1) / E ≤ q then
    some ((r - 1) / D, (c - 1) / E) else none

theorem copyOwner_iff (p q D E : Nat) (hD : 0 < D) (hE : 0 < E) (r c i j : Nat) (hi : i ≤ p) (hj : j ≤ q) :
    copyOwner p q D E r c = some (i, j) ↔ (r = 1 + i * D ∧ c = 1 + j * E) := by
  unfold copyOwner
  constructor
  · intro h
    split at h
    · rename_i hc
      simp only [Option.some.injEq, Prod.mk.injEq] at h
      have a := (div_mod_node (r - 1) D i hD).1 ⟨hc.2.2.1, h.1⟩
      have b := (div_mod_node (c - 1) E j hE).1 ⟨hc.2.2.2.1, h.2⟩
      omega
    · cases h
  · rintro ⟨rfl, rfl⟩
    have a := (div_mod_node (1 + i * D - 1) D i hD).2 (by omega)
    have b := (div_mod_node (1 + j * E - 1) E j hE).2 (by omega)
    rw [if_pos ⟨by omega, by omega, a.1, b.1, by omega, by omega⟩, a.2, b.2]

/-- Steps 1-3 on a block of `p` x `q` cells with lower left point `(i0,j0)`. -/
theorem regridBlock_spec [ZeroLaw F] (geod : Geod F) (xg yg : Mat F) (i0 j0 p q ls lt : Nat)
    (hr : yg.rows = xg.rows) (hc : yg.cols = xg.cols) (hp : 0 < p) (hq : 0 < q)
    (hls : 0 < ls) (hlt : 0 < lt) (hi : i0 + p < xg.rows) (hj : j0 + q < xg.cols) :
    ∃ s0 s : Mat F × Mat F, ∃ g,
      Spec.FillWindow s0.1 s0.2 1 (1 + p * (2 * ls)) 1 (1 + q * (2 * lt)) ls lt ∧
      (∀ i j, i ≤ p → j ≤ q → Spec.at s0 (1 + i * (2 * ls)) (1 + j * (2 * lt)) =
        (xg.get (i0 + i) (j0 + j), yg.get (i0 + i) (j0 + j))) ∧
      (∀ r c, Spec.at s0 r c = (Arith.zero, Arith.zero) ∨ ∃ i j, i ≤ p ∧ j ≤ q ∧ r = 1 + i * (2 * ls) ∧ c = 1 + j * (2 * lt)) ∧
      fill geod s0.1 s0.2 1 (1 + p * (2 * ls)) 1 (1 + q * (2 * lt)) ls lt = .ok s ∧
      Spec.Ringed s.1 s.2 (p * ls) (q * lt) ∧
      tomitgridRing geod s.1 s.2 (p * ls) (q * lt) = .ok g ∧
      regridBlock geod xg yg (((i0 : Int), ((j0 + q : Nat) : Int)), (((i0 + p : Nat) : Int), (j0 : Int)))
        (ls : Int) (lt : Int) = .ok (g, ((p * ls : Nat) : Int), ((q * lt : Nat) : Int)) := by
  have hDi : p * (2 * ls) = 2 * (p * ls) := by rw [Nat.mul_left_comm]
  have hDj : q * (2 * lt) = 2 * (q * lt) := by rw [Nat.mul_left_comm]
  let R := 2 * (p * ls) + 3
  let C := 2 * (q * lt) + 3
  -- the copy loop
  have loop := forIJ_paint (p + 1) (q + 1)
    (fun (s : Mat F × Mat F) (i j : Nat) => do
      let x ← s.1.setAtI (1 + 2 * (ls : Int) * (i : Int)) (1 + 2 * (lt : Int) * (j : Int)) (xg.get (i0 + i) (j0 + j))
      let y ← s.2.setAtI (1 + 2 * (ls : Int) * (i : Int)) (1 + 2 * (lt : Int) * (j : Int)) (yg.get (i0 + i) (j0 + j))
      return (x, y))
    (fun s r c => Spec.at s r c)
    (fun s => s.1.rows = R ∧ s.1.cols = C ∧ s.2.rows = R ∧ s.2.cols = C)
    (copyOwner p q (2 * ls) (2 * lt))
    (fun r c => (xg.get (i0 + (r - 1) / (2 * ls)) (j0 + (c - 1) / (2 * lt)),
      yg.get (i0 + (r - 1) / (2 * ls)) (j0 + (c - 1) / (2 * lt))))
    (Mat.full R C Arith.zero, Mat.full R C Arith.zero) ⟨rfl, rfl, rfl, rfl⟩
    (by
      intro s i j hi' hj' hg _
      obtain ⟨g1, g2, g3, g4⟩ := hg
      have ei : (1 + 2 * (ls : Int) * (i : Int)) = ((1 + i * (2 * ls) : Nat) : Int) := by
        rw [Int.natCast_add, Int.natCast_mul, Int.natCast_mul, Int.mul_comm]; rfl
      have ej : (1 + 2 * (lt : Int) * (j : Int)) = ((1 + j * (2 * lt) : Nat) : Int) := by
        rw [Int.natCast_add, Int.natCast_mul, Int.natCast_mul, Int.mul_comm]; rfl
      have li : i * (2 * ls) ≤ p * (2 * ls) := Nat.mul_le_mul_right _ (by omega)
      have lj : j * (2 * lt) ≤ q * (2 * lt) := Nat.mul_le_mul_right _ (by omega)
      refine ⟨(s.1.set (1 + i * (2 * ls)) (1 + j * (2 * lt)) (xg.get (i0 + i) (j0 + j)),
        s.2.set (1 + i * (2 * ls)) (1 + j * (2 * lt)) (yg.get (i0 + i) (j0 + j))), ?_, ⟨g1, g2, g3, g4⟩, ?_⟩
      · rw [ei, ej, Mat.setAtI_nat _ _ _ _ (by omega) (by omega), Py.ok_bind,
          Mat.setAtI_nat _ _ _ _ (by omega) (by omega), Py.ok_bind]
        rfl
      · intro r c
        by_cases ho : copyOwner p q (2 * ls) (2 * lt) r c = some (i, j)
        · rw [if_pos ho]
          obtain ⟨rfl, rfl⟩ := (copyOwner_iff p q (2 * ls) (2 * lt) (by omega) (by omega) r c i j
            (by omega) (by omega)).1 ho
          have a := (div_mod_node (1 + i * (2 * ls) - 1) (2 * ls) i (by omega)).2 (by omega)
          have b := (div_mod_node (1 + j * (2 * lt) - 1) (2 * lt) j (by omega)).2 (by omega)
          rw [a.2, b.2]
          unfold Spec.at Mat.set
          simp
        · rw [if_neg ho]
          rw [copyOwner_iff p q (2 * ls) (2 * lt) (by omega) (by omega) r c i j (by omega) (by omega)] at ho
          unfold Spec.at Mat.set
          simp only
          rw [if_neg ho, if_neg ho])
  obtain ⟨s0, hs0, ⟨g1, g2, g3, g4⟩, hv⟩ := loop
  have hw : Spec.FillWindow s0.1 s0.2 1 (1 + p * (2 * ls)) 1 (1 + q * (2 * lt)) ls lt :=
    ⟨by omega, by omega, hls, hlt, ⟨p, hp, rfl⟩, ⟨q, hq, rfl⟩, by omega, by omega⟩
  obtain ⟨s, hf, ⟨a, b, c, d⟩, -, -⟩ := C17_fill_preserves geod _ _ _ _ _ _ _ _ hw
  have hring : Spec.Ringed s.1 s.2 (p * ls) (q * lt) := ⟨by omega, by omega, by omega, by omega⟩
  obtain ⟨g, hg, -⟩ := C21_tomitgrid_complete geod s.1 s.2 (p * ls) (q * lt) hring
  refine ⟨s0, s, g, hw, ?_, fun r c => ?_, hf, hring, hg, ?_⟩
  · intro i j hi' hj'
    rw [hv]
    rw [(copyOwner_iff p q (2 * ls) (2 * lt) (by omega) (by omega) _ _ i j hi' hj').2 ⟨rfl, rfl⟩]
    have a := (div_mod_node (1 + i * (2 * ls) - 1) (2 * ls) i (by omega)).2 (by omega)
    have b := (div_mod_node (1 + j * (2 * lt) - 1) (2 * lt) j (by omega)).2 (by omega)
    simp only [a.2, b.2]
    rw [if_pos (by omega)]
  · cases ho : copyOwner p q (2 * ls) (2 * lt) r c with
    | none => left; rw [hv, ho]; rfl
    | some x =>
      right
      have hb : x.1 ≤ p ∧ x.2 ≤ q := by
        unfold copyOwner at ho
        split at ho
        · rename_i hc
          cases ho
          exact ⟨hc.2.2.2.2.1, hc.2.2.2.2.2⟩
        · cases ho
      exact ⟨x.1, x.2, hb.1, hb.2, (copyOwner_iff p q (2 * ls) (2 * lt) (by omega) (by omega) r c x.1 x.2 hb.1 hb.2).1 ho⟩
  · unfold regridBlock
    dsimp only
    have m1 : min (i0 : Int) ((i0 + p : Nat) : Int) = (i0 : Int) := by omega
    have m2 : max (i0 : Int) ((i0 + p : Nat) : Int) = ((i0 + p : Nat) : Int) := by omega
    have m3 : min ((j0 + q : Nat) : Int) (j0 : Int) = (j0 : Int) := by omega
    have m4 : max ((j0 + q : Nat) : Int) (j0 : Int) = ((j0 + q : Nat) : Int) := by omega
    rw [m1, m2, m3, m4]
    have p1 : ((i0 + p : Nat) : Int) - (i0 : Int) = (p : Int) := by omega
    have p2 : ((j0 + q : Nat) : Int) - (j0 : Int) = (q : Int) := by omega
    rw [p1, p2]
    have q1 : 1 + 2 * (ls : Int) * (p : Int) = ((1 + p * (2 * ls) : Nat) : Int) := by
      rw [Int.natCast_add, Int.natCast_mul, Int.natCast_mul, Int.mul_comm]; rfl
    have q2 : 1 + 2 * (lt : Int) * (q : Int) = ((1 + q * (2 * lt) : Nat) : Int) := by
      rw [Int.natCast_add, Int.natCast_mul, Int.natCast_mul, Int.mul_comm]; rfl
    rw [q1, q2]
    have z : (zerosI (((1 + p * (2 * ls) : Nat) : Int) + 1 + 1) (((1 + q * (2 * lt) : Nat) : Int) + 1 + 1)
        : Py (Mat F)) = .ok (Mat.full R C Arith.zero) := by
      unfold zerosI
      rw [if_neg (by omega)]
      have e1 : (((1 + p * (2 * ls) : Nat) : Int) + 1 + 1).toNat = R := by omega
      have e2 : (((1 + q * (2 * lt) : Nat) : Int) + 1 + 1).toNat = C := by omega
      rw [e1, e2]
    rw [z, Py.ok_bind, Py.ok_bind]
    have n1 : (i0 : Int).toNat = i0 := rfl
    have n2 : (j0 : Int).toNat = j0 := rfl
    have n3 : (((i0 + p : Nat) : Int) + 1).toNat = i0 + p + 1 := by omega
    have n4 : (((j0 + q : Nat) : Int) + 1).toNat = j0 + q + 1 := by omega
    rw [n1, n2, n3, n4]
    have b1 : (xg.strided i0 (i0 + p + 1) 1 j0 (j0 + q + 1) 1).rows = p + 1 := by
      show sliceLen _ _ 1 = _
      rw [sliceLen_one]; omega
    have b2 : (xg.strided i0 (i0 + p + 1) 1 j0 (j0 + q + 1) 1).cols = q + 1 := by
      show sliceLen _ _ 1 = _
      rw [sliceLen_one]; omega
    rw [b1, b2]
    have bx : ∀ (m : Mat F) i j, (m.strided i0 (i0 + p + 1) 1 j0 (j0 + q + 1) 1).get i j =
        m.get (i0 + i) (j0 + j) := by
      intro m i j
      show m.get (i0 + i * 1) (j0 + j * 1) = _
      rw [Nat.mul_one, Nat.mul_one]
    simp only [bx]
    rw [hs0, Py.ok_bind]
    show (fill geod s0.1 s0.2 1 (1 + p * (2 * ls)) 1 (1 + q * (2 * lt)) ls lt >>= _) = _
    rw [hf, Py.ok_bind]
    have t : tomitgrid geod s.1 s.2 0 1 ((1 + p * (2 * ls) : Nat) : Int).toNat
        (((1 + p * (2 * ls) : Nat) : Int).toNat + 1) 0 1 ((1 + q * (2 * lt) : Nat) : Int).toNat
        (((1 + q * (2 * lt) : Nat) : Int).toNat + 1) = .ok g := by
      rw [← hg]
      unfold tomitgridRing
      have e1 : ((1 + p * (2 * ls) : Nat) : Int).toNat = 1 + 2 * (p * ls) := by omega
      have e2 : ((1 + q * (2 * lt) : Nat) : Int).toNat = 1 + 2 * (q * lt) := by omega
      rw [e1, e2]
    rw [t, Py.ok_bind]
    show Except.ok _ = Except.ok _
    rw [Int.natCast_mul, Int.natCast_mul]


theorem forIJ_first_error {σ : Type} (n m : Nat) (hn : 0 < n) (hm : 0 < m) (f : σ → Nat → Nat → Py σ)
    (s : σ) (e : PyErr) (h : f s 0 0 = .error e) :
    forIJ (List.range n) (List.range m) f s = .error e := by
  obtain ⟨n, rfl⟩ : ∃ k, n = k + 1 := ⟨n - 1, by omega⟩
  obtain ⟨m, rfl⟩ : ∃ k, m = k + 1 := ⟨m - 1, by omega⟩
  unfold forIJ
  rw [List.range_succ_eq_map, List.range_succ_eq_map, List.foldlM_cons, List.foldlM_cons, h]
  rfl

/-- Non-positive subscales raise, and `fill` is only reached with non-negative ones. -/
theorem regridBlock_rejects (geod : Geod F) (xg yg : Mat F) (c : Corners) (lonSub latSub : Int)
    (hr : yg.rows = xg.rows) (hc : yg.cols = xg.cols)
    (h1 : InRange xg c.1) (h2 : InRange xg c.2) (ha : aligned c = true)
    (h : lonSub ≤ 0 ∨ latSub ≤ 0) :
    ∃ e, regridBlock geod xg yg c lonSub latSub = .error e := by
  rw [aligned_iff] at ha
  unfold InRange at h1 h2
  unfold regridBlock
  dsimp only
  generalize hD : max c.1.1 c.2.1 - min c.1.1 c.2.1 = D
  generalize hE : max c.1.2 c.2.2 - min c.1.2 c.2.2 = E
  have hD1 : 1 ≤ D := by omega
  have hE1 : 1 ≤ E := by omega
  by_cases hz : 1 + 2 * lonSub * D + 1 + 1 < 0 ∨ 1 + 2 * latSub * E + 1 + 1 < 0
  · refine ⟨.valueError, ?_⟩
    have : (zerosI (1 + 2 * lonSub * D + 1 + 1) (1 + 2 * latSub * E + 1 + 1) : Py (Mat F)) =
      .error .valueError := if_pos hz
    rw [this]; rfl
  · have z : (zerosI (1 + 2 * lonSub * D + 1 + 1) (1 + 2 * latSub * E + 1 + 1) : Py (Mat F)) =
      .ok (Mat.full (1 + 2 * lonSub * D + 1 + 1).toNat (1 + 2 * latSub * E + 1 + 1).toNat Arith.zero) :=
      if_neg hz
    rw [z, Py.ok_bind, Py.ok_bind]
    by_cases hneg : lonSub < 0 ∨ latSub < 0
    · -- the compute grid has a single row or column: the first assignment is out of range
      refine ⟨.indexError, ?_⟩
      rw [forIJ_first_error _ _ (by
        show 0 < sliceLen _ _ 1
        rw [sliceLen_one]; omega) (by
        show 0 < sliceLen _ _ 1
        rw [sliceLen_one]; omega) _ _ .indexError]
      · rfl
      · have : ∀ v : F, (Mat.full (1 + 2 * lonSub * D + 1 + 1).toNat (1 + 2 * latSub * E + 1 + 1).toNat
            Arith.zero).setAtI (1 + 2 * lonSub * ((0 : Nat) : Int)) (1 + 2 * latSub * ((0 : Nat) : Int)) v =
            .error .indexError := by
          intro v
          have z0 : ∀ x : Int, 1 + 2 * x * ((0 : Nat) : Int) = 1 := by intro x; simp
          rw [z0, z0]
          have lem : ∀ x y : Int, x < 0 → 1 ≤ y → 2 * x * y ≤ -2 := by
            intro x y hx hy
            have : x * y ≤ (-1) * y := Int.mul_le_mul_of_nonneg_right (by omega) (by omega)
            rw [Int.mul_assoc]; omega
          unfold Mat.setAtI Mat.full
          by_cases hl : lonSub < 0
          · have := lem _ _ hl hD1
            have : pyIdx (1 + 2 * lonSub * D + 1 + 1).toNat 1 = none := by
              unfold pyIdx; rw [if_pos (by omega), if_neg (by omega)]
            simp only [this]
          · have := lem latSub _ (by omega) hE1
            have : pyIdx (1 + 2 * latSub * E + 1 + 1).toNat 1 = none := by
              unfold pyIdx; rw [if_pos (by omega), if_neg (by omega)]
            simp only [this]
            split <;> simp_all
        rw [this]; rfl
    · have hf : ∀ (x y : Mat F) (a b : Nat), fill geod x y 1 a 1 b lonSub.toNat latSub.toNat =
          .error .valueError := by
        intro x y a b
        unfold fill; rw [if_pos (by omega)]; rfl
      cases hl : forIJ (List.range (xg.strided (min c.1.1 c.2.1).toNat (max c.1.1 c.2.1 + 1).toNat 1
          (min c.1.2 c.2.2).toNat (max c.1.2 c.2.2 + 1).toNat 1).rows)
          (List.range (xg.strided (min c.1.1 c.2.1).toNat (max c.1.1 c.2.1 + 1).toNat 1
          (min c.1.2 c.2.2).toNat (max c.1.2 c.2.2 + 1).toNat 1).cols)
          (fun (s : Mat F × Mat F) i j => do
            let x ← s.1.setAtI (1 + 2 * lonSub * i) (1 + 2 * latSub * j)
              ((xg.strided (min c.1.1 c.2.1).toNat (max c.1.1 c.2.1 + 1).toNat 1
                (min c.1.2 c.2.2).toNat (max c.1.2 c.2.2 + 1).toNat 1).get i j)
            let y ← s.2.setAtI (1 + 2 * lonSub * i) (1 + 2 * latSub * j)
              ((yg.strided (min c.1.1 c.2.1).toNat (max c.1.1 c.2.1 + 1).toNat 1
                (min c.1.2 c.2.2).toNat (max c.1.2 c.2.2 + 1).toNat 1).get i j)
            return (x, y))
          (Mat.full (1 + 2 * lonSub * D + 1 + 1).toNat (1 + 2 * latSub * E + 1 + 1).toNat Arith.zero,
           Mat.full (1 + 2 * lonSub * D + 1 + 1).toNat (1 + 2 * latSub * E + 1 + 1).toNat Arith.zero) with
      | error e => exact ⟨e, rfl⟩
      | ok s => exact ⟨.valueError, by rw [Py.ok_bind, hf]; rfl⟩

/-! ### determinism -/

theorem align_mono (geod : Geod F) (lon1 lat1 lon2 lat2 : F) (n m : Nat) (s : NArr F × NArr F) (c : Corners)
    (r) (h : align geod lon1 lat1 lon2 lat2 n s c = some r) :
    align geod lon1 lat1 lon2 lat2 (n + m) s c = some r := by
  induction n generalizing s c with
  | zero => cases h
  | succ n ih =>
    rw [Nat.succ_add]
    unfold align at h ⊢
    split
    · rename_i hc; rw [if_pos hc] at h; exact h
    · rename_i hc
      rw [if_neg hc] at h
      dsimp only at h ⊢
      split
      · rename_i he; rw [he] at h; exact h
      · rename_i c' he
        rw [he] at h
        exact ih _ _ h

theorem regridXY_mono (geod : Geod F) (lon1 lat1 lon2 lat2 : F) (lonSub latSub : Int) (n m : Nat)
    (s : NArr F × NArr F) (r) (h : regridXY geod lon1 lat1 lon2 lat2 lonSub latSub n s = some r) :
    regridXY geod lon1 lat1 lon2 lat2 lonSub latSub (n + m) s = some r := by
  unfold regridXY at h ⊢
  cases hl : locate geod lon1 lat1 lon2 lat2 s with
  | error e => rw [hl] at h; exact h
  | ok c =>
    rw [hl] at h
    dsimp only at h ⊢
    by_cases hd : c.1.1 = c.2.1 ∨ c.1.2 = c.2.2
    · rw [if_pos hd] at h ⊢; exact h
    · rw [if_neg hd] at h ⊢
      cases ha : align geod lon1 lat1 lon2 lat2 n s c with
      | none => rw [ha] at h; cases h
      | some x => rw [align_mono _ _ _ _ _ _ _ _ _ _ ha]; rw [ha] at h; exact h

theorem regridXY_det (geod : Geod F) (lon1 lat1 lon2 lat2 : F) (lonSub latSub : Int) (n m : Nat)
    (s : NArr F × NArr F) (r r') (h : regridXY geod lon1 lat1 lon2 lat2 lonSub latSub n s = some r)
    (h' : regridXY geod lon1 lat1 lon2 lat2 lonSub latSub m s = some r') : r = r' := by
  have a := regridXY_mono _ _ _ _ _ _ _ n m _ _ h
  have b := regridXY_mono _ _ _ _ _ _ _ m n _ _ h'
  rw [Nat.add_comm] at b
  rw [a] at b; exact Option.some.inj b

/-! ### all outcomes of `regridXY` -/

theorem locate_shapes (geod : Geod F) (lon1 lat1 lon2 lat2 : F) (s : NArr F × NArr F) (c : Corners)
    (h : locate geod lon1 lat1 lon2 lat2 s = .ok c) : Spec.SameShape s.1 s.2 := by
  unfold locate nearest at h
  by_cases h1 : s.1.mat.rows ≠ s.2.mat.rows ∨ s.1.mat.cols ≠ s.2.mat.cols
  · rw [if_pos h1] at h; cases h
  · rw [if_neg h1] at h
    by_cases h2 : s.1.mat.rows * s.1.mat.cols = 0
    · rw [if_pos h2] at h; cases h
    · have h3 : s.1.mat.rows ≠ 0 := fun e => h2 (by rw [e, Nat.zero_mul])
      have h4 : s.1.mat.cols ≠ 0 := fun e => h2 (by rw [e, Nat.mul_zero])
      exact ⟨by omega, by omega, by omega, by omega⟩

theorem turns_shape (k : Nat) (s : NArr F × NArr F) (h : Spec.SameShape s.1 s.2) :
    Spec.SameShape (turns k s).1 (turns k s).2 := by
  induction k generalizing s with
  | zero => exact h
  | succ k ih => exact ih _ ⟨h.2.1, h.1, h.2.2.2, h.2.2.1⟩

/-- `regridXY` by cases: error in `locate`; degenerate corners; exactly one corner located (hangs);
diagonal corners. -/
theorem regridXY_cases (geod : Geod F) (lon1 lat1 lon2 lat2 : F) (lonSub latSub : Int)
    (s : NArr F × NArr F) (hw : s.1.WF) :
    (∃ e, locate geod lon1 lat1 lon2 lat2 s = .error e ∧
      ∀ fuel, regridXY geod lon1 lat1 lon2 lat2 lonSub latSub fuel s = some (s, .error e)) ∨
    ∃ c, locate geod lon1 lat1 lon2 lat2 s = .ok c ∧
     (((c.1.1 = c.2.1 ∨ c.1.2 = c.2.2) ∧
        ∀ fuel, regridXY geod lon1 lat1 lon2 lat2 lonSub latSub fuel s = some (s, .error .valueError)) ∨
      (OneLocated s c ∧ ∀ fuel, regridXY geod lon1 lat1 lon2 lat2 lonSub latSub fuel s = none) ∨
      (Diagonal s c ∧ ∃ k c', k ≤ 3 ∧ AlignsAfter geod lon1 lat1 lon2 lat2 k s c c' ∧
        ∀ n, regridXY geod lon1 lat1 lon2 lat2 lonSub latSub (k + n + 1) s =
          some (turns k s, regridBlock geod (turns k s).1.mat (turns k s).2.mat c' lonSub latSub))) := by
  cases hl : locate geod lon1 lat1 lon2 lat2 s with
  | error e => exact .inl ⟨e, rfl, fun _ => by unfold regridXY; rw [hl]⟩
  | ok c =>
    refine .inr ⟨c, rfl, ?_⟩
    by_cases hd : c.1.1 = c.2.1 ∨ c.1.2 = c.2.2
    · exact .inl ⟨hd, fun _ => by unfold regridXY; rw [hl]; dsimp only; rw [if_pos hd]⟩
    · right
      have key : ∀ fuel, regridXY geod lon1 lat1 lon2 lat2 lonSub latSub fuel s =
          match align geod lon1 lat1 lon2 lat2 fuel s c with
          | none => none
          | some (s', .error e) => some (s', .error e)
          | some (s', .ok c') => some (s', regridBlock geod s'.1.mat s'.2.mat c' lonSub latSub) := by
        intro fuel
        conv => lhs; unfold regridXY
        rw [hl]; dsimp only; rw [if_neg hd]
        rfl
      obtain ⟨h1, h2⟩ := locate_cases _ _ _ _ _ _ hw _ hl
      have one : OneLocated s c → OneLocated s c ∧
          ∀ fuel, regridXY geod lon1 lat1 lon2 lat2 lonSub latSub fuel s = none := fun ho =>
        ⟨ho, fun fuel => by rw [key, align_hangs _ _ _ _ _ _ _ _ hw hl ho]⟩
      rcases h1 with h1 | h1 <;> rcases h2 with h2 | h2
      · exfalso; apply hd; left; rw [h1, h2]
      · exact .inl (one (.inl ⟨h1, h2⟩))
      · exact .inl (one (.inr ⟨h1, h2⟩))
      · right
        have hdg : Diagonal s c := ⟨h1, h2, by omega, by omega⟩
        obtain ⟨k, c', hk, ha⟩ := align_terminates _ _ _ _ _ _ _ hw hl hdg
        exact ⟨hdg, k, c', hk, ha, fun n => by rw [key, ha.2.2.2 n]⟩

/-- The located value does not change under turns. -/
theorem turns_value (geod : Geod F) (lon1 lat1 lon2 lat2 : F) (k : Nat) (s : NArr F × NArr F) (hw : s.1.WF)
    (c c' : Corners) (hs : Spec.SameShape s.1 s.2)
    (hl : locate geod lon1 lat1 lon2 lat2 s = .ok c) (hd : Diagonal s c)
    (hl' : locate geod lon1 lat1 lon2 lat2 (turns k s) = .ok c') :
    Diagonal (turns k s) c' ∧
    ((turns k s).1.mat.get c'.1.1.toNat c'.1.2.toNat = s.1.mat.get c.1.1.toNat c.1.2.toNat ∧
     (turns k s).2.mat.get c'.1.1.toNat c'.1.2.toNat = s.2.mat.get c.1.1.toNat c.1.2.toNat) ∧
    ((turns k s).1.mat.get c'.2.1.toNat c'.2.2.toNat = s.1.mat.get c.2.1.toNat c.2.2.toNat ∧
     (turns k s).2.mat.get c'.2.1.toNat c'.2.2.toNat = s.2.mat.get c.2.1.toNat c.2.2.toNat) := by
  induction k generalizing s c with
  | zero =>
    have : c' = c := by rw [show turns 0 s = s from rfl, hl] at hl'; exact (Except.ok.inj hl').symm
    subst this
    exact ⟨hd, ⟨rfl, rfl⟩, ⟨rfl, rfl⟩⟩
  | succ k ih =>
    obtain ⟨d1, e1⟩ := diagonal_turn s c hd
    have := ih (turn s) (NArr.rot90_wf hw) (rotC s.1.mat.cols c) ⟨hs.2.1, hs.1, hs.2.2.2, hs.2.2.1⟩
      (locate_turn_ok _ _ _ _ _ _ hw _ hl) d1 hl'
    refine ⟨this.1, ?_⟩
    have v : ∀ (m : Mat F) (p : Int × Int), m.rows = s.1.mat.rows → m.cols = s.1.mat.cols → InRange s.1.mat p →
        m.rot90.get ((s.1.mat.cols : Int) - 1 - p.2).toNat p.1.toNat = m.get p.1.toNat p.2.toNat := by
      intro m p hr hc hp
      unfold InRange at hp
      show m.get p.1.toNat (m.cols - 1 - ((s.1.mat.cols : Int) - 1 - p.2).toNat) = _
      congr 1
      omega
    have q := this.2
    rw [e1] at q
    dsimp only at q
    have v1 := v s.1.mat c.1 rfl rfl hd.nw
    have v2 := v s.2.mat c.1 hs.1.symm hs.2.1.symm hd.nw
    have v3 := v s.1.mat c.2 rfl rfl hd.se
    have v4 := v s.2.mat c.2 hs.1.symm hs.2.1.symm hd.se
    refine ⟨⟨?_, ?_⟩, ⟨?_, ?_⟩⟩
    · exact q.1.1.trans v1
    · exact q.1.2.trans v2
    · exact q.2.1.trans v3
    · exact q.2.2.trans v4

end SG
