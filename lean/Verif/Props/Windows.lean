import Verif.Props.WholeGrid
/-! # C136: cutting out a window first changes nothing -/

set_option linter.unusedSectionVars false
namespace SG
variable {F : Type} [PyFloat F]

/-- Cells in x and y of the block between the grid points `(u1,v1)`, `(u2,v2)` (in opposite corners), when it is turned so that the first is its upper left corner
`[0,-1]` and the second its lower right corner `[-1,0]`. -/
def Spec.blockSize (u1 v1 u2 v2 : Nat) : Nat × Nat :=
  let du := if u1 < u2 then u2 - u1 else u1 - u2
  let dv := if v1 < v2 then v2 - v1 else v1 - v2
  if u1 < u2 ∧ v2 < v1 ∨ u2 < u1 ∧ v1 < v2 then (du, dv) else (dv, du)

/-- Where point `[x,y]` of that block is in the grid. -/
def Spec.inBlock (u1 v1 u2 v2 : Nat) (x y : Nat) : Nat × Nat :=
  if u1 < u2 then (if v2 < v1 then (u1 + x, v2 + y) else (u2 - y, v1 + x))
  else (if v2 < v1 then (u2 + y, v1 - x) else (u1 - x, v2 - y))

/-- The points of the block. -/
def Spec.blockPoint (xg yg : Mat F) (u1 v1 u2 v2 : Nat) (x y : Nat) : F × F :=
  (xg.get (Spec.inBlock u1 v1 u2 v2 x y).1 (Spec.inBlock u1 v1 u2 v2 x y).2, yg.get (Spec.inBlock u1 v1 u2 v2 x y).1 (Spec.inBlock u1 v1 u2 v2 x y).2)

/-- `a` lies between `u1` and `u2`. -/
def Spec.Between (u1 u2 a : Nat) : Prop := (u1 ≤ a ∧ a ≤ u2) ∨ (u2 ≤ a ∧ a ≤ u1)

theorem refined_agree (geod : Geod F) (east : Bool) (ls lt p q : Nat) (hls : 0 < ls) (hlt : 0 < lt) (G G' : Nat → Nat → F × F)
    (h : ∀ x y, x ≤ p → y ≤ q → G x y = G' x y) (a b : Nat) (ha : a ≤ p * (2 * ls)) (hb : b ≤ q * (2 * lt)) :
    Spec.refined geod east ls lt G a b = Spec.refined geod east ls lt G' a b := by
  have dma := Nat.div_add_mod a (2 * ls)
  have dmb := Nat.div_add_mod b (2 * lt)
  rw [Nat.mul_comm] at dma dmb
  have xp : a / (2 * ls) ≤ p := by
    have := Nat.div_le_div_right (c := 2 * ls) ha
    rwa [Nat.mul_div_cancel _ (by omega)] at this
  have yq : b / (2 * lt) ≤ q := by
    have := Nat.div_le_div_right (c := 2 * lt) hb
    rwa [Nat.mul_div_cancel _ (by omega)] at this
  have side : ∀ y, y ≤ q → Spec.onArc geod east (2 * ls) (G (a / (2 * ls)) y) (G (a / (2 * ls) + 1) y) (a % (2 * ls)) =
      Spec.onArc geod east (2 * ls) (G' (a / (2 * ls)) y) (G' (a / (2 * ls) + 1) y) (a % (2 * ls)) := by
    intro y hy
    rw [h _ y xp hy]
    by_cases h0 : a % (2 * ls) = 0
    · rw [h0]; rfl
    · have : a / (2 * ls) < p := by
        refine Nat.lt_of_not_le fun hc => ?_
        have := Nat.mul_le_mul_right (2 * ls) hc
        omega
      rw [h _ y this hy]
  unfold Spec.refined
  dsimp only
  rw [side _ yq]
  by_cases h0 : b % (2 * lt) = 0
  · rw [h0]; rfl
  · have : b / (2 * lt) < q := by
      refine Nat.lt_of_not_le fun hc => ?_
      have := Nat.mul_le_mul_right (2 * lt) hc
      omega
    rw [side _ this]

theorem refinedGrid_agree (geod : Geod F) (ls lt p q : Nat) (hls : 0 < ls) (hlt : 0 < lt) (G G' : Nat → Nat → F × F) (g : Grid F)
    (h : ∀ x y, x ≤ p → y ≤ q → G x y = G' x y) (hg : Spec.RefinedGrid geod ls lt p q G g) : Spec.RefinedGrid geod ls lt p q G' g := by
  obtain ⟨east, he, hv⟩ := hg
  refine ⟨east, ?_, fun f => ?_⟩
  · rw [he]
    constructor
    · intro hh x y hx hy; rw [← h x y hx hy]; exact hh x y hx hy
    · intro hh x y hx hy; rw [h x y hx hy]; exact hh x y hx hy
  · obtain ⟨M, hM, v1, v2, v⟩ := hv f
    have agree : TileAgree (Spec.refinedTile geod east ls lt p q G) (Spec.refinedTile geod east ls lt p q G') := by
      refine ⟨rfl, rfl, fun a b ha ha' hb hb' => ?_⟩
      change a ≤ 2 * ((p * ls : Nat) : Int) at ha'
      change b ≤ 2 * ((q * lt : Nat) : Int) at hb'
      have e1 : p * (2 * ls) = 2 * (p * ls) := by rw [Nat.mul_left_comm]
      have e2 : q * (2 * lt) = 2 * (q * lt) := by rw [Nat.mul_left_comm]
      exact refined_agree geod east ls lt p q hls hlt G G' h a.toNat b.toNat (by omega) (by omega)
    refine ⟨M, hM, v1, v2, fun i j hi hj => ?_⟩
    rw [v i j hi hj, ← usePlanar_agree agree geod.inv]
    exact entry_agree agree _ _ f i j hi hj

/-- Two grids refined from the same points have the same 16 arrays. -/
theorem refinedGrid_unique (geod : Geod F) (ls lt p q : Nat) (G : Nat → Nat → F × F) (g g' : Grid F)
    (h : Spec.RefinedGrid geod ls lt p q G g) (h' : Spec.RefinedGrid geod ls lt p q G g') (f : Field) :
    ∃ M M', g f = .arr M ∧ g' f = .arr M' ∧ M.Same M' := by
  obtain ⟨east, he, hv⟩ := h
  obtain ⟨east', he', hv'⟩ := h'
  obtain rfl : east' = east := by
    cases east <;> cases east' <;> first | rfl | exact absurd (he'.2 (he.1 rfl)) (by decide) | exact absurd (he.2 (he'.1 rfl)) (by decide)
  obtain ⟨M, hM, v1, v2, v⟩ := hv f
  obtain ⟨M', hM', v1', v2', v'⟩ := hv' f
  exact ⟨M, M', hM, hM', v1.trans v1'.symm, v2.trans v2'.symm, fun i j hi hj => (v i j (by omega) (by omega)).trans (v' i j (by omega) (by omega)).symm⟩

section regrid
variable [F64 F]

/-- A call in terms of the source as it is given: the block between the points nearest to the two corner points, turned. -/
theorem regrid_inBlock [ZeroLaw F] [FloatOrder F] (geod : Geod F) (fs : Files F) (fuel : Nat) (hf : 4 ≤ fuel) (a : RegridArgs F)
    (d : MatDict F) (hsrc : readSource fs a = .ok d) (hw : d.xg.WF) (hs : Spec.SameShape d.xg d.yg) (u1 v1 u2 v2 ls lt : Nat)
    (n1 : Spec.UniqueNearest geod a.lon1 a.lat1 (d.xg, d.yg) u1 v1) (n2 : Spec.UniqueNearest geod a.lon2 a.lat2 (d.xg, d.yg) u2 v2)
    (hu : u1 ≠ u2) (hv : v1 ≠ v2) (hls : a.lonSub = ls) (hlt : a.latSub = lt) (ls0 : 0 < ls) (lt0 : 0 < lt) :
    ∃ dict' g, regrid geod fs fuel a = some (dict', .ok (g, (((Spec.blockSize u1 v1 u2 v2).1 * ls : Nat) : Int), (((Spec.blockSize u1 v1 u2 v2).2 * lt : Nat) : Int))) ∧
      Spec.RefinedGrid geod ls lt (Spec.blockSize u1 v1 u2 v2).1 (Spec.blockSize u1 v1 u2 v2).2 (Spec.blockPoint d.xg.mat d.yg.mat u1 v1 u2 v2) g := by
  have r1 := n1.1
  have r2 := n1.2.1
  have r3 := n2.1
  have r4 := n2.2.1
  dsimp only at r1 r2 r3 r4
  obtain ⟨e1, m1⟩ := nearest_unique geod _ _ (d.xg, d.yg) hw hs _ _ n1
  obtain ⟨e2, m2⟩ := nearest_unique geod _ _ (d.xg, d.yg) hw hs _ _ n2
  obtain ⟨dict', g, ni, nj, h⟩ := C34_regrid_succeeds geod fs a d hsrc hw u1 v1 u2 v2 e1 e2 m1 m2 hu hv (by omega) (by omega) fuel hf
  obtain ⟨k, c, c', ⟨hk, hl, hdg, hal, -, -⟩, i0, j0, p, q, ls', lt', ⟨hc', hp, hq, -, -, hls', hlt', hi, hj, hni, hnj⟩, s0, s, hwin, hnodes, hzero, hfl,
    hring, hg⟩ := regrid_built geod fs fuel a d hsrc hw dict' g ni nj h
  obtain rfl : ls' = ls := by omega
  obtain rfl : lt' = lt := by omega
  have hG := refined_grid geod s0 s p q ls' lt' _ g hwin hnodes hzero hfl hring hg
  have hcc : c = (((u1 : Int), (v1 : Int)), ((u2 : Int), (v2 : Int))) := by
    unfold locate at hl
    rw [m1, m2] at hl
    exact (Except.ok.inj hl).symm
  subst hcc
  have hlk := hal.2.2.1
  -- the position after the turns
  have key : (Spec.blockSize u1 v1 u2 v2).1 = p ∧ (Spec.blockSize u1 v1 u2 v2).2 = q ∧
      ∀ x y, x ≤ p → y ≤ q → ((turns k (d.xg, d.yg)).1.mat.get (i0 + x) (j0 + y), (turns k (d.xg, d.yg)).2.mat.get (i0 + x) (j0 + y)) =
        Spec.blockPoint d.xg.mat d.yg.mat u1 v1 u2 v2 x y := by
    obtain ⟨d1', e1⟩ := diagonal_turn _ _ hdg
    have l1 := locate_turn_ok _ _ _ _ _ _ hw _ hl
    have w1 : (turn (d.xg, d.yg)).1.WF := NArr.rot90_wf hw
    obtain ⟨d2', e2⟩ := diagonal_turn _ _ d1'
    have l2 := locate_turn_ok _ _ _ _ _ _ w1 _ l1
    have w2 : (turn (turn (d.xg, d.yg))).1.WF := NArr.rot90_wf w1
    obtain ⟨d3', e3⟩ := diagonal_turn _ _ d2'
    have l3 := locate_turn_ok _ _ _ _ _ _ w2 _ l2
    have s1 := hs.1
    have s2 := hs.2.1
    have hk3 : k = 0 ∨ k = 1 ∨ k = 2 ∨ k = 3 := by omega
    rcases hk3 with rfl | rfl | rfl | rfl
    · rw [show turns 0 (d.xg, d.yg) = (d.xg, d.yg) from rfl] at hlk ⊢
      rw [hl, hc'] at hlk
      have := Except.ok.inj hlk
      simp only [Prod.mk.injEq] at this
      obtain ⟨⟨ea, eb⟩, ⟨ed, ef⟩⟩ := this
      have q1 : u1 < u2 := by omega
      have q2 : v2 < v1 := by omega
      refine ⟨?_, ?_, fun x y hx hy => ?_⟩
      · simp only [Spec.blockSize, q1, q2, true_and, true_or, if_true]; omega
      · simp only [Spec.blockSize, q1, q2, true_and, true_or, if_true, if_neg (show ¬ v1 < v2 by omega)]; omega
      · simp only [Spec.blockPoint, Spec.inBlock, q1, q2, if_true]
        rw [show i0 = u1 by omega, show j0 = v2 by omega]
    · obtain ⟨t1, t2⟩ := turned_turns 1 (by omega) (by omega) (d.xg, d.yg)
      rw [show turns 1 (d.xg, d.yg) = turn (d.xg, d.yg) from rfl] at hlk hi hj t1 t2 ⊢
      rw [l1, e1, hc'] at hlk
      have := Except.ok.inj hlk
      simp only [Prod.mk.injEq] at this
      obtain ⟨⟨ea, eb⟩, ⟨ed, ef⟩⟩ := this
      obtain ⟨t1a, t1b, t1c⟩ := t1
      obtain ⟨t2a, t2b, t2c⟩ := t2
      dsimp only at t1a t1b t1c t2a t2b t2c
      have q1 : ¬ u1 < u2 := by omega
      have q2 : v2 < v1 := by omega
      refine ⟨?_, ?_, fun x y hx hy => ?_⟩
      · simp only [Spec.blockSize, q1, q2, false_and, false_or, if_neg (show ¬ (u2 < u1 ∧ v1 < v2) by omega), if_neg (show ¬ v1 < v2 by omega), if_false]; omega
      · simp only [Spec.blockSize, q1, q2, false_and, false_or, if_neg (show ¬ (u2 < u1 ∧ v1 < v2) by omega), if_neg (show ¬ v1 < v2 by omega), if_false]; omega
      · simp only [Spec.blockPoint, Spec.inBlock, q1, q2, if_true, if_false]
        rw [t1c _ _ (by omega) (by omega), t2c _ _ (by omega) (by omega), if_pos rfl, if_pos rfl, ← s2]
        rw [show j0 + y = u2 + y by omega, show d.xg.mat.cols - 1 - (i0 + x) = v1 - x by omega]
    · obtain ⟨t1, t2⟩ := turned_turns 2 (by omega) (by omega) (d.xg, d.yg)
      rw [show turns 2 (d.xg, d.yg) = turn (turn (d.xg, d.yg)) from rfl] at hlk hi hj t1 t2 ⊢
      rw [l2, e2, e1, hc'] at hlk
      have := Except.ok.inj hlk
      simp only [Prod.mk.injEq] at this
      obtain ⟨⟨ea, eb⟩, ⟨ed, ef⟩⟩ := this
      obtain ⟨t1a, t1b, t1c⟩ := t1
      obtain ⟨t2a, t2b, t2c⟩ := t2
      rw [show (turn (d.xg, d.yg)).1.mat.cols = d.xg.mat.rows from rfl] at ea ed
      dsimp only at t1a t1b t1c t2a t2b t2c ea eb ed ef
      have q1 : ¬ u1 < u2 := by omega
      have q2 : ¬ v2 < v1 := by omega
      refine ⟨?_, ?_, fun x y hx hy => ?_⟩
      · simp only [Spec.blockSize, q1, q2, false_and, false_or, if_pos (show u2 < u1 ∧ v1 < v2 by omega), if_false]; omega
      · simp only [Spec.blockSize, q1, q2, false_and, false_or, if_pos (show u2 < u1 ∧ v1 < v2 by omega), if_pos (show v1 < v2 by omega)]; omega
      · simp only [Spec.blockPoint, Spec.inBlock, q1, q2, if_false]
        rw [t1c _ _ (by omega) (by omega), t2c _ _ (by omega) (by omega), ← s2, ← s1]
        rw [show d.xg.mat.rows - 1 - (i0 + x) = u1 - x by omega, show d.xg.mat.cols - 1 - (j0 + y) = v2 - y by omega]
    · obtain ⟨t1, t2⟩ := turned_turns 3 (by omega) (by omega) (d.xg, d.yg)
      rw [show turns 3 (d.xg, d.yg) = turn (turn (turn (d.xg, d.yg))) from rfl] at hlk hi hj t1 t2 ⊢
      rw [l3, e3, e2, e1, hc'] at hlk
      have := Except.ok.inj hlk
      simp only [Prod.mk.injEq] at this
      obtain ⟨⟨ea, eb⟩, ⟨ed, ef⟩⟩ := this
      obtain ⟨t1a, t1b, t1c⟩ := t1
      obtain ⟨t2a, t2b, t2c⟩ := t2
      rw [show (turn (turn (d.xg, d.yg))).1.mat.cols = d.xg.mat.cols from rfl] at ea ed
      rw [show (turn (d.xg, d.yg)).1.mat.cols = d.xg.mat.rows from rfl] at eb ef
      dsimp only at t1a t1b t1c t2a t2b t2c ea eb ed ef
      have q1 : u1 < u2 := by omega
      have q2 : ¬ v2 < v1 := by omega
      refine ⟨?_, ?_, fun x y hx hy => ?_⟩
      · simp only [Spec.blockSize, q1, q2, and_false, false_or, if_neg (show ¬ (u2 < u1 ∧ v1 < v2) by omega), if_pos (show v1 < v2 by omega), if_true]; omega
      · simp only [Spec.blockSize, q1, q2, and_false, false_or, if_neg (show ¬ (u2 < u1 ∧ v1 < v2) by omega), if_pos (show v1 < v2 by omega), if_true]; omega
      · simp only [Spec.blockPoint, Spec.inBlock, q1, q2, if_true, if_false]
        rw [t1c _ _ (by omega) (by omega), t2c _ _ (by omega) (by omega), if_neg (by decide), if_neg (by decide), ← s1]
        rw [show i0 + x = v1 + x by omega, show d.xg.mat.rows - 1 - (j0 + y) = u2 - y by omega]
  obtain ⟨k1, k2, k3⟩ := key
  rw [k1, k2]
  subst hni hnj
  exact ⟨dict', g, h, refinedGrid_agree geod ls' lt' p q ls0 lt0 _ _ g k3 hG⟩

/-! ## Blocks of blocks -/

theorem block_cases (u1 v1 u2 v2 : Nat) (hu : u1 ≠ u2) (hv : v1 ≠ v2) :
    (u1 < u2 ∧ v2 < v1 ∧ Spec.blockSize u1 v1 u2 v2 = (u2 - u1, v1 - v2) ∧ ∀ x y, Spec.inBlock u1 v1 u2 v2 x y = (u1 + x, v2 + y)) ∨
    (u2 < u1 ∧ v2 < v1 ∧ Spec.blockSize u1 v1 u2 v2 = (v1 - v2, u1 - u2) ∧ ∀ x y, Spec.inBlock u1 v1 u2 v2 x y = (u2 + y, v1 - x)) ∨
    (u2 < u1 ∧ v1 < v2 ∧ Spec.blockSize u1 v1 u2 v2 = (u1 - u2, v2 - v1) ∧ ∀ x y, Spec.inBlock u1 v1 u2 v2 x y = (u1 - x, v2 - y)) ∨
    (u1 < u2 ∧ v1 < v2 ∧ Spec.blockSize u1 v1 u2 v2 = (v2 - v1, u2 - u1) ∧ ∀ x y, Spec.inBlock u1 v1 u2 v2 x y = (u2 - y, v1 + x)) := by
  unfold Spec.blockSize Spec.inBlock
  dsimp only
  rcases Nat.lt_or_gt_of_ne hu with a | a <;> rcases Nat.lt_or_gt_of_ne hv with b | b
  · exact .inr (.inr (.inr ⟨a, b, by rw [if_neg (by omega), if_pos a, if_pos b], fun x y => by rw [if_pos a, if_neg (by omega)]⟩))
  · exact .inl ⟨a, b, by rw [if_pos (by omega), if_pos a, if_neg (by omega)], fun x y => by rw [if_pos a, if_pos b]⟩
  · exact .inr (.inr (.inl ⟨a, b, by rw [if_pos (by omega), if_neg (by omega), if_pos b], fun x y => by rw [if_neg (by omega), if_neg (by omega)]⟩))
  · exact .inr (.inl ⟨a, b, by rw [if_neg (by omega), if_neg (by omega), if_neg (by omega)], fun x y => by rw [if_neg (by omega), if_pos b]⟩)

theorem inBlock_range (u1 v1 u2 v2 rows cols x y : Nat) (h1 : u1 < rows) (h2 : v1 < cols) (h3 : u2 < rows) (h4 : v2 < cols) (hu : u1 ≠ u2) (hv : v1 ≠ v2)
    (hx : x ≤ (Spec.blockSize u1 v1 u2 v2).1) (hy : y ≤ (Spec.blockSize u1 v1 u2 v2).2) :
    (Spec.inBlock u1 v1 u2 v2 x y).1 < rows ∧ (Spec.inBlock u1 v1 u2 v2 x y).2 < cols := by
  rcases block_cases u1 v1 u2 v2 hu hv with ⟨a, b, e, f⟩ | ⟨a, b, e, f⟩ | ⟨a, b, e, f⟩ | ⟨a, b, e, f⟩ <;>
    rw [e] at hx hy <;> rw [f] <;> dsimp only at hx hy ⊢ <;> omega

theorem inBlock_inj (u1 v1 u2 v2 x y x' y' : Nat) (hu : u1 ≠ u2) (hv : v1 ≠ v2)
    (hx : x ≤ (Spec.blockSize u1 v1 u2 v2).1) (hy : y ≤ (Spec.blockSize u1 v1 u2 v2).2)
    (hx' : x' ≤ (Spec.blockSize u1 v1 u2 v2).1) (hy' : y' ≤ (Spec.blockSize u1 v1 u2 v2).2)
    (h : Spec.inBlock u1 v1 u2 v2 x y = Spec.inBlock u1 v1 u2 v2 x' y') : (x, y) = (x', y') := by
  rcases block_cases u1 v1 u2 v2 hu hv with ⟨a, b, e, f⟩ | ⟨a, b, e, f⟩ | ⟨a, b, e, f⟩ | ⟨a, b, e, f⟩ <;>
    rw [e] at hx hy hx' hy' <;> rw [f, f] at h <;> dsimp only at hx hy hx' hy' <;> simp only [Prod.mk.injEq] at h ⊢ <;> omega

/-- Every point between the corners is in the block. -/
theorem inBlock_onto (u1 v1 u2 v2 a b : Nat) (hu : u1 ≠ u2) (hv : v1 ≠ v2) (ha : Spec.Between u1 u2 a) (hb : Spec.Between v1 v2 b) :
    ∃ x y, x ≤ (Spec.blockSize u1 v1 u2 v2).1 ∧ y ≤ (Spec.blockSize u1 v1 u2 v2).2 ∧ Spec.inBlock u1 v1 u2 v2 x y = (a, b) := by
  unfold Spec.Between at ha hb
  rcases block_cases u1 v1 u2 v2 hu hv with ⟨c, d, e, f⟩ | ⟨c, d, e, f⟩ | ⟨c, d, e, f⟩ | ⟨c, d, e, f⟩ <;> rw [e]
  · exact ⟨a - u1, b - v2, by dsimp only; omega, by dsimp only; omega, by rw [f, Prod.mk.injEq]; omega⟩
  · exact ⟨v1 - b, a - u2, by dsimp only; omega, by dsimp only; omega, by rw [f, Prod.mk.injEq]; omega⟩
  · exact ⟨u1 - a, v2 - b, by dsimp only; omega, by dsimp only; omega, by rw [f, Prod.mk.injEq]; omega⟩
  · exact ⟨b - v1, u2 - a, by dsimp only; omega, by dsimp only; omega, by rw [f, Prod.mk.injEq]; omega⟩

/-- A block of a block is the block between the same points of the grid. -/
theorem block_block (u1 v1 u2 v2 x1 y1 x2 y2 a1 b1 a2 b2 : Nat) (hu : u1 ≠ u2) (hv : v1 ≠ v2)
    (hx1 : x1 ≤ (Spec.blockSize u1 v1 u2 v2).1) (hy1 : y1 ≤ (Spec.blockSize u1 v1 u2 v2).2)
    (hx2 : x2 ≤ (Spec.blockSize u1 v1 u2 v2).1) (hy2 : y2 ≤ (Spec.blockSize u1 v1 u2 v2).2)
    (e1 : Spec.inBlock u1 v1 u2 v2 x1 y1 = (a1, b1)) (e2 : Spec.inBlock u1 v1 u2 v2 x2 y2 = (a2, b2)) (ha : a1 ≠ a2) (hb : b1 ≠ b2) :
    x1 ≠ x2 ∧ y1 ≠ y2 ∧ Spec.blockSize x1 y1 x2 y2 = Spec.blockSize a1 b1 a2 b2 ∧
    ∀ x y, x ≤ (Spec.blockSize a1 b1 a2 b2).1 → y ≤ (Spec.blockSize a1 b1 a2 b2).2 →
      (Spec.inBlock x1 y1 x2 y2 x y).1 ≤ (Spec.blockSize u1 v1 u2 v2).1 ∧ (Spec.inBlock x1 y1 x2 y2 x y).2 ≤ (Spec.blockSize u1 v1 u2 v2).2 ∧
      Spec.inBlock u1 v1 u2 v2 (Spec.inBlock x1 y1 x2 y2 x y).1 (Spec.inBlock x1 y1 x2 y2 x y).2 = Spec.inBlock a1 b1 a2 b2 x y := by
  have ne : x1 ≠ x2 ∧ y1 ≠ y2 := by
    rcases block_cases u1 v1 u2 v2 hu hv with ⟨c, d, e, f⟩ | ⟨c, d, e, f⟩ | ⟨c, d, e, f⟩ | ⟨c, d, e, f⟩ <;>
      rw [f, Prod.mk.injEq] at e1 e2 <;> rw [e] at hx1 hy1 hx2 hy2 <;> dsimp only at hx1 hy1 hx2 hy2 <;> omega
  refine ⟨ne.1, ne.2, ?_⟩
  rcases block_cases u1 v1 u2 v2 hu hv with ⟨c, d, e, f⟩ | ⟨c, d, e, f⟩ | ⟨c, d, e, f⟩ | ⟨c, d, e, f⟩ <;>
    rw [f, Prod.mk.injEq] at e1 e2 <;> rw [e] at hx1 hy1 hx2 hy2 ⊢ <;> dsimp only at hx1 hy1 hx2 hy2 ⊢ <;>
    rcases block_cases x1 y1 x2 y2 ne.1 ne.2 with ⟨c', d', e', f'⟩ | ⟨c', d', e', f'⟩ | ⟨c', d', e', f'⟩ | ⟨c', d', e', f'⟩ <;>
    rcases block_cases a1 b1 a2 b2 ha hb with ⟨c'', d'', e'', f''⟩ | ⟨c'', d'', e'', f''⟩ | ⟨c'', d'', e'', f''⟩ | ⟨c'', d'', e'', f''⟩ <;>
    first
    | (exfalso; omega)
    | (refine ⟨by rw [e', e'', Prod.mk.injEq]; omega, fun x y hx hy => ?_⟩
       rw [e''] at hx hy
       rw [f', f'', f]
       dsimp only at hx hy ⊢
       rw [Prod.mk.injEq]
       omega)

/-! ## C136 -/

theorem refined_node (geod : Geod F) (east : Bool) (G : Nat → Nat → F × F) (i j : Nat) : Spec.refined geod east 1 1 G (2 * i) (2 * j) = G i j := by
  unfold Spec.refined
  dsimp only
  rw [Nat.mul_one, Nat.mul_mod_right, Nat.mul_mod_right, Nat.mul_div_cancel_left _ (by omega), Nat.mul_div_cancel_left _ (by omega)]
  rfl

/-- With subscale 1 the corner points are those of the block. -/
theorem refinedGrid_points (geod : Geod F) (p q : Nat) (G : Nat → Nat → F × F) (g : Grid F) (h : Spec.RefinedGrid geod 1 1 p q G g) :
    ∃ XG YG, g .XG = .arr XG ∧ g .YG = .arr YG ∧ (XG.rows = p + 1 ∧ XG.cols = q + 1) ∧ (YG.rows = p + 1 ∧ YG.cols = q + 1) ∧
      ∀ x y, x ≤ p → y ≤ q → (XG.get x y, YG.get x y) = G x y := by
  obtain ⟨east, -, hv⟩ := h
  obtain ⟨X, hX, x1, x2, x3⟩ := hv .XG
  obtain ⟨Y, hY, y1, y2, y3⟩ := hv .YG
  simp only [Spec.nrows, Spec.ncols, Nat.mul_one] at x1 x2 x3 y1 y2 y3
  refine ⟨X, Y, hX, hY, ⟨x1, x2⟩, ⟨y1, y2⟩, fun x y hx hy => ?_⟩
  rw [x3 x y (by omega) (by omega), y3 x y (by omega) (by omega), ← refined_node geod east G x y]
  rfl

/-- **C136**, no points but those of the block: two sources of any shapes and orientations that have the same points between the points nearest to the corner points
give the same 16 arrays. -/
theorem C136_block_only [ZeroLaw F] [FloatOrder F] (geod : Geod F) (fs fs' : Files F) (fuel : Nat) (hf : 4 ≤ fuel) (a a' : RegridArgs F) (d d' : MatDict F)
    (hsrc : readSource fs a = .ok d) (hw : d.xg.WF) (hs : Spec.SameShape d.xg d.yg)
    (hsrc' : readSource fs' a' = .ok d') (hw' : d'.xg.WF) (hs' : Spec.SameShape d'.xg d'.yg) (u1 v1 u2 v2 u1' v1' u2' v2' : Nat)
    (n1 : Spec.UniqueNearest geod a.lon1 a.lat1 (d.xg, d.yg) u1 v1) (n2 : Spec.UniqueNearest geod a.lon2 a.lat2 (d.xg, d.yg) u2 v2)
    (n1' : Spec.UniqueNearest geod a'.lon1 a'.lat1 (d'.xg, d'.yg) u1' v1') (n2' : Spec.UniqueNearest geod a'.lon2 a'.lat2 (d'.xg, d'.yg) u2' v2')
    (hu : u1 ≠ u2) (hv : v1 ≠ v2) (hu' : u1' ≠ u2') (hv' : v1' ≠ v2') (hls : 1 ≤ a.lonSub) (hlt : 1 ≤ a.latSub)
    (els : a'.lonSub = a.lonSub) (elt : a'.latSub = a.latSub) (size : Spec.blockSize u1' v1' u2' v2' = Spec.blockSize u1 v1 u2 v2)
    (same : ∀ x y, x ≤ (Spec.blockSize u1 v1 u2 v2).1 → y ≤ (Spec.blockSize u1 v1 u2 v2).2 →
      Spec.blockPoint d'.xg.mat d'.yg.mat u1' v1' u2' v2' x y = Spec.blockPoint d.xg.mat d.yg.mat u1 v1 u2 v2 x y) :
    ∃ dict₁ g₁ dict₂ g₂ ni nj, regrid geod fs fuel a = some (dict₁, .ok (g₁, ni, nj)) ∧ regrid geod fs' fuel a' = some (dict₂, .ok (g₂, ni, nj)) ∧
      ∀ f, ∃ M M', g₁ f = .arr M ∧ g₂ f = .arr M' ∧ M.Same M' := by
  obtain ⟨ls, hls'⟩ := Int.eq_ofNat_of_zero_le (show 0 ≤ a.lonSub by omega)
  obtain ⟨lt, hlt'⟩ := Int.eq_ofNat_of_zero_le (show 0 ≤ a.latSub by omega)
  have ls0 : 0 < ls := by omega
  have lt0 : 0 < lt := by omega
  obtain ⟨dict1, g1, h1, R1⟩ := regrid_inBlock geod fs fuel hf a d hsrc hw hs u1 v1 u2 v2 ls lt n1 n2 hu hv hls' hlt' ls0 lt0
  obtain ⟨dict2, g2, h2, R2⟩ := regrid_inBlock geod fs' fuel hf a' d' hsrc' hw' hs' u1' v1' u2' v2' ls lt n1' n2' hu' hv' (by omega) (by omega) ls0 lt0
  rw [size] at h2 R2
  exact ⟨dict1, g1, dict2, g2, _, _, h1, h2, refinedGrid_unique geod ls lt _ _ _ g1 g2 R1 (refinedGrid_agree geod ls lt _ _ ls0 lt0 _ _ g2 same R2)⟩

/-- **C136**: a window cut out with subscales 1 has, for every call whose corner points are nearest to points of the window, the same result as the whole source: all
16 arrays, whichever ways round source, window and result are. -/
theorem C136_window_first [ZeroLaw F] [FloatOrder F] (geod : Geod F) (fs : Files F) (fuel : Nat) (hf : 4 ≤ fuel) (d : MatDict F) (hw : d.xg.WF)
    (hs : Spec.SameShape d.xg d.yg)
    -- the window: the points nearest to its corner points are in different rows and columns of the source
    (a : RegridArgs F) (ha : readSource fs a = .ok d) (ha1 : a.lonSub = 1) (ha2 : a.latSub = 1) (u1 v1 u2 v2 : Nat)
    (n1 : Spec.UniqueNearest geod a.lon1 a.lat1 (d.xg, d.yg) u1 v1) (n2 : Spec.UniqueNearest geod a.lon2 a.lat2 (d.xg, d.yg) u2 v2)
    (hu : u1 ≠ u2) (hv : v1 ≠ v2)
    -- the call on the whole source: the points nearest to its corner points are in the window, in different rows and columns
    (b : RegridArgs F) (hb : readSource fs b = .ok d) (hb1 : 1 ≤ b.lonSub) (hb2 : 1 ≤ b.latSub) (a1 b1 a2 b2 : Nat)
    (m1 : Spec.UniqueNearest geod b.lon1 b.lat1 (d.xg, d.yg) a1 b1) (m2 : Spec.UniqueNearest geod b.lon2 b.lat2 (d.xg, d.yg) a2 b2)
    (hab : a1 ≠ a2) (hbb : b1 ≠ b2) (ia1 : Spec.Between u1 u2 a1) (ia2 : Spec.Between u1 u2 a2) (ib1 : Spec.Between v1 v2 b1) (ib2 : Spec.Between v1 v2 b2) :
    ∃ dict₁ window ni₁ nj₁ XG YG, regrid geod fs fuel a = some (dict₁, .ok (window, ni₁, nj₁)) ∧ window .XG = .arr XG ∧ window .YG = .arr YG ∧
      -- the same call on the window, however it is read in again
      ∀ (fs' : Files F) (b' : RegridArgs F) (w : MatDict F), readSource fs' b' = .ok w → w.xg.WF → w.xg.mat.Same XG → w.yg.mat.Same YG →
        b'.lon1 = b.lon1 → b'.lat1 = b.lat1 → b'.lon2 = b.lon2 → b'.lat2 = b.lat2 → b'.lonSub = b.lonSub → b'.latSub = b.latSub →
        ∃ dict₂ g₂ dict₃ g₃ ni nj, regrid geod fs fuel b = some (dict₂, .ok (g₂, ni, nj)) ∧ regrid geod fs' fuel b' = some (dict₃, .ok (g₃, ni, nj)) ∧
          ∀ f, ∃ M M', g₂ f = .arr M ∧ g₃ f = .arr M' ∧ M.Same M' := by
  have r1 := n1.1
  have r2 := n1.2.1
  have r3 := n2.1
  have r4 := n2.2.1
  dsimp only at r1 r2 r3 r4
  obtain ⟨dict1, g1, h1, R1⟩ := regrid_inBlock geod fs fuel hf a d ha hw hs u1 v1 u2 v2 1 1 n1 n2 hu hv ha1 ha2 (by decide) (by decide)
  obtain ⟨XG, YG, hX, hY, ⟨x1, x2⟩, ⟨y1, y2⟩, pts⟩ := refinedGrid_points geod _ _ _ g1 R1
  refine ⟨dict1, g1, _, _, XG, YG, h1, hX, hY, ?_⟩
  intro fs' b' w hb' hww wx wy l1 l2 l3 l4 l5 l6
  obtain ⟨ls, hls⟩ := Int.eq_ofNat_of_zero_le (show 0 ≤ b.lonSub by omega)
  obtain ⟨lt, hlt⟩ := Int.eq_ofNat_of_zero_le (show 0 ≤ b.latSub by omega)
  have ls0 : 0 < ls := by omega
  have lt0 : 0 < lt := by omega
  obtain ⟨dict2, g2, h2, R2⟩ := regrid_inBlock geod fs fuel hf b d hb hw hs a1 b1 a2 b2 ls lt m1 m2 hab hbb hls hlt ls0 lt0
  obtain ⟨px, py, hp1, hp2, ep⟩ := inBlock_onto u1 v1 u2 v2 a1 b1 hu hv ia1 ib1
  obtain ⟨qx, qy, hq1, hq2, eq⟩ := inBlock_onto u1 v1 u2 v2 a2 b2 hu hv ia2 ib2
  obtain ⟨nx, ny, es, ei⟩ := block_block u1 v1 u2 v2 px py qx qy a1 b1 a2 b2 hu hv hp1 hp2 hq1 hq2 ep eq hab hbb
  obtain ⟨wx1, wx2, wx3⟩ := wx
  obtain ⟨wy1, wy2, wy3⟩ := wy
  have hsw : Spec.SameShape w.xg w.yg := ⟨by omega, by omega, by omega, by omega⟩
  have get : ∀ x y, x ≤ (Spec.blockSize u1 v1 u2 v2).1 → y ≤ (Spec.blockSize u1 v1 u2 v2).2 →
      (w.xg.mat.get x y, w.yg.mat.get x y) = Spec.blockPoint d.xg.mat d.yg.mat u1 v1 u2 v2 x y := by
    intro x y hx hy
    rw [wx3 x y (by omega) (by omega), wy3 x y (by omega) (by omega)]
    exact pts x y hx hy
  have uniq : ∀ lon lat i j x y, Spec.UniqueNearest geod lon lat (d.xg, d.yg) i j → x ≤ (Spec.blockSize u1 v1 u2 v2).1 → y ≤ (Spec.blockSize u1 v1 u2 v2).2 →
      Spec.inBlock u1 v1 u2 v2 x y = (i, j) → Spec.UniqueNearest geod lon lat (w.xg, w.yg) x y := by
    intro lon lat i j x y hn hx hy e
    obtain ⟨-, -, c3, c4⟩ := hn
    have dist : ∀ x y, x ≤ (Spec.blockSize u1 v1 u2 v2).1 → y ≤ (Spec.blockSize u1 v1 u2 v2).2 → Spec.dist geod lon lat w.xg.mat w.yg.mat x y =
        Spec.dist geod lon lat d.xg.mat d.yg.mat (Spec.inBlock u1 v1 u2 v2 x y).1 (Spec.inBlock u1 v1 u2 v2 x y).2 := by
      intro x y hx hy
      have := get x y hx hy
      simp only [Spec.blockPoint, Prod.mk.injEq] at this
      unfold Spec.dist
      rw [this.1, this.2]
    refine ⟨by dsimp only; omega, by dsimp only; omega, ?_, fun x' y' hx' hy' hne => ?_⟩
    · dsimp only
      rw [dist x y hx hy, e]
      exact c3
    · dsimp only at hx' hy' ⊢
      rw [dist x y hx hy, dist x' y' (by omega) (by omega), e]
      obtain ⟨q1, q2⟩ := inBlock_range u1 v1 u2 v2 _ _ x' y' r1 r2 r3 r4 hu hv (by omega) (by omega)
      refine c4 _ _ q1 q2 fun hc => hne ?_
      refine inBlock_inj u1 v1 u2 v2 x' y' x y hu hv (by omega) (by omega) hx hy ?_
      rw [e]
      exact hc
  obtain ⟨dict3, g3, h3, R3⟩ := regrid_inBlock geod fs' fuel hf b' w hb' hww hsw px py qx qy ls lt (by rw [l1, l2]; exact uniq _ _ _ _ _ _ m1 hp1 hp2 ep)
    (by rw [l3, l4]; exact uniq _ _ _ _ _ _ m2 hq1 hq2 eq) nx ny (by omega) (by omega) ls0 lt0
  rw [es] at h3 R3
  refine ⟨dict2, g2, dict3, g3, _, _, h2, h3, refinedGrid_unique geod ls lt _ _ _ g2 g3 R2 (refinedGrid_agree geod ls lt _ _ ls0 lt0 _ _ g3 ?_ R3)⟩
  intro x y hx hy
  obtain ⟨c1, c2, c3⟩ := ei x y hx hy
  show (w.xg.mat.get (Spec.inBlock px py qx qy x y).1 (Spec.inBlock px py qx qy x y).2, w.yg.mat.get (Spec.inBlock px py qx qy x y).1 (Spec.inBlock px py qx qy x y).2) = _
  rw [get _ _ c1 c2]
  unfold Spec.blockPoint
  rw [c3]

end regrid

/-! ## A case -/

/-- 4 x 3 points with longitudes 0, 10, 20, 30 and latitudes 0, 10, 20. -/
def exWide : MatDict Toy where
  xg := .ofC ⟨4, 3, fun i _ => Toy.ofInt (10 * i)⟩
  yg := .ofC ⟨4, 3, fun _ j => Toy.ofInt (10 * j)⟩
  rest := fun _ => .arr ⟨3, 2, fun _ _ => 0⟩

theorem toy_nearest (d : MatDict Toy) (lon lat : Toy) (i j : Nat) (hi : i < d.xg.mat.rows) (hj : j < d.xg.mat.cols)
    (h0 : PyFloat.lt (Spec.dist Toy.geod lon lat d.xg.mat d.yg.mat i j) PyFloat.c1e10 = true)
    (h : ((List.range d.xg.mat.rows).all fun i' => (List.range d.xg.mat.cols).all fun j' => (i', j') == (i, j) ||
      PyFloat.lt (Spec.dist Toy.geod lon lat d.xg.mat d.yg.mat i j)
        (Spec.dist Toy.geod lon lat d.xg.mat d.yg.mat i' j')) = true) :
    Spec.UniqueNearest Toy.geod lon lat (d.xg, d.yg) i j := by
  refine ⟨hi, hj, h0, fun i' j' hi' hj' hne => ?_⟩
  rw [List.all_eq_true] at h
  have h1 := h i' (List.mem_range.2 hi')
  rw [List.all_eq_true] at h1
  have h2 := h1 j' (List.mem_range.2 hj')
  rw [Bool.or_eq_true, beq_iff_eq] at h2
  exact h2.resolve_left hne

/-- The 3 x 2 points of `exDict` are among the 4 x 3 points of `exWide`: the same call on both. -/
example : ∃ dict₁ g₁ dict₂ g₂ ni nj, regrid Toy.geod exFiles 4 { exArgs 20 0 0 10 1 2 with matrices := some exWide } = some (dict₁, .ok (g₁, ni, nj)) ∧
    regrid Toy.geod exFiles 4 (exArgs 20 0 0 10 1 2) = some (dict₂, .ok (g₂, ni, nj)) ∧ ∀ f, ∃ M M', g₁ f = .arr M ∧ g₂ f = .arr M' ∧ M.Same M' :=
  C136_block_only Toy.geod exFiles exFiles 4 (by decide) { exArgs 20 0 0 10 1 2 with matrices := some exWide } (exArgs 20 0 0 10 1 2) exWide exDict
    rfl (NArr.ofC_wf _) ⟨rfl, rfl, by decide, by decide⟩ rfl (NArr.ofC_wf _) ⟨rfl, rfl, by decide, by decide⟩ 2 0 0 1 2 0 0 1
    (toy_nearest exWide _ _ _ _ (by decide) (by decide) (by decide +kernel) (by decide +kernel))
    (toy_nearest exWide _ _ _ _ (by decide) (by decide) (by decide +kernel) (by decide +kernel))
    (toy_nearest exDict _ _ _ _ (by decide) (by decide) (by decide +kernel) (by decide +kernel))
    (toy_nearest exDict _ _ _ _ (by decide) (by decide) (by decide +kernel) (by decide +kernel))
    (by decide) (by decide) (by decide) (by decide) (by decide) (by decide) rfl rfl rfl (fun _ _ _ _ => rfl)

/-- The window between (30,0) and (10,20), which is turned by two quarter turns, and in it the block between (10,10) and (20,20), divided into 2 x 1 cells: the call on
the window and the call on the whole grid, which turns it by three, agree. -/
example : ∃ dict₁ window ni₁ nj₁ XG YG,
    regrid Toy.geod exFiles 4 { exArgs 30 0 10 20 1 1 with matrices := some exWide } = some (dict₁, .ok (window, ni₁, nj₁)) ∧
    window .XG = .arr XG ∧ window .YG = .arr YG ∧
    ∃ dict₂ g₂ dict₃ g₃ ni nj, regrid Toy.geod exFiles 4 { exArgs 10 10 20 20 2 1 with matrices := some exWide } = some (dict₂, .ok (g₂, ni, nj)) ∧
      regrid Toy.geod exFiles 4 { exArgs 10 10 20 20 2 1 with matrices := some ⟨.ofC XG, .ofC YG, window⟩ } = some (dict₃, .ok (g₃, ni, nj)) ∧
      ∀ f, ∃ M M', g₂ f = .arr M ∧ g₃ f = .arr M' ∧ M.Same M' := by
  obtain ⟨dict, window, ni, nj, XG, YG, h, hX, hY, H⟩ := C136_window_first Toy.geod exFiles 4 (by decide) exWide (NArr.ofC_wf _) ⟨rfl, rfl, by decide, by decide⟩
    { exArgs 30 0 10 20 1 1 with matrices := some exWide } rfl rfl rfl 3 0 1 2
    (toy_nearest exWide _ _ _ _ (by decide) (by decide) (by decide +kernel) (by decide +kernel))
    (toy_nearest exWide _ _ _ _ (by decide) (by decide) (by decide +kernel) (by decide +kernel)) (by decide) (by decide)
    { exArgs 10 10 20 20 2 1 with matrices := some exWide } rfl (by decide) (by decide) 1 1 2 2
    (toy_nearest exWide _ _ _ _ (by decide) (by decide) (by decide +kernel) (by decide +kernel))
    (toy_nearest exWide _ _ _ _ (by decide) (by decide) (by decide +kernel) (by decide +kernel)) (by decide) (by decide)
    (by unfold Spec.Between; omega) (by unfold Spec.Between; omega) (by unfold Spec.Between; omega) (by unfold Spec.Between; omega)
  refine ⟨dict, window, ni, nj, XG, YG, h, hX, hY, ?_⟩
  have hsrc : ∃ XC, window .XC = .arr XC := by
    obtain ⟨k, i0, j0, p, q, ls, lt, d1, d2, -, -, -, -, -, -, -, -, -, east, -, hv⟩ :=
      C124_regrid Toy.geod exFiles 4 _ exWide rfl (NArr.ofC_wf _) dict window ni nj h
    obtain ⟨M, hM, -⟩ := hv .XC
    exact ⟨M, hM⟩
  obtain ⟨XC, hXC⟩ := hsrc
  refine H exFiles { exArgs 10 10 20 20 2 1 with matrices := some ⟨.ofC XG, .ofC YG, window⟩ } ⟨.ofC XG, .ofC YG, window⟩ ?_ (NArr.ofC_wf _)
    ⟨rfl, rfl, fun _ _ _ _ => rfl⟩ ⟨rfl, rfl, fun _ _ _ _ => rfl⟩ rfl rfl rfl rfl rfl rfl
  rw [readSource_dict exFiles _ _ (by decide)]
  dsimp only
  rw [hXC]

end SG
