import Mathlib.Tactic.Ring
import Verif.Props.Windows
import Verif.Props.TileBlock
/-! # C137: regridding in parts -/

set_option linter.unusedSectionVars false
namespace SG
variable {F : Type} [PyFloat F]

/-- No longitude of the mesh is negative. -/
def Spec.MeshNonNeg (p q : Nat) (G : Nat → Nat → F × F) : Prop := ∀ x y, x ≤ p → y ≤ q → PyFloat.lt (G x y).1 Arith.zero = false

/-- Part of a mesh, from point `[x0,y0]`. -/
def Spec.meshPart (G : Nat → Nat → F × F) (x0 y0 : Nat) (x y : Nat) : F × F := G (x0 + x) (y0 + y)

/-- A mesh and its part get the same kind of longitudes: either the mesh has no negative ones, or the part has some, too. -/
def Spec.SameLongitudes (p q : Nat) (G : Nat → Nat → F × F) (x0 y0 p' q' : Nat) : Prop :=
  Spec.MeshNonNeg p' q' (Spec.meshPart G x0 y0) → Spec.MeshNonNeg p q G

/-- Both get their areas from the same formula (planar or spherical). -/
def Spec.SameFormula (geod : Geod F) (ls lt p q : Nat) (G : Nat → Nat → F × F) (x0 y0 p' q' : Nat) : Prop :=
  ∀ east : Bool, (east = true ↔ Spec.MeshNonNeg p q G) → (Spec.refinedTile geod east ls lt p' q' (Spec.meshPart G x0 y0)).usePlanar geod.inv =
    (Spec.refinedTile geod east ls lt p q G).usePlanar geod.inv

/-- A tile that is part of another one. -/
structure TilePart (T T' : Spec.Tile F) (X Y : Nat) : Prop where
  m : X + T'.m ≤ T.m
  n : Y + T'.n ≤ T.n
  P : ∀ a b : Int, 0 ≤ a → 0 ≤ b → T'.P a b = T.P (a + 2 * X) (b + 2 * Y)

theorem TilePart.entry {T T' : Spec.Tile F} {X Y : Nat} (h : TilePart T T' X Y) (inv) (quad) (f : Field) (i j : Nat)
    (hi : i < Spec.nrows f T'.m) (hj : j < Spec.ncols f T'.n) (hu : ¬ Spec.Undefined f T'.m T'.n i j) :
    T'.entry inv quad f i j = T.entry inv quad f (X + i) (Y + j) := by
  have hm := h.m
  have hn := h.n
  have sx : ∀ a b : Int, 0 ≤ a → a < 2 * T'.m → 0 ≤ b → b ≤ 2 * T'.n → T'.subX inv a b = T.subX inv (a + 2 * X) (b + 2 * Y) := by
    intro a b h1 h2 h3 h4
    unfold Spec.Tile.subX
    rw [if_pos ⟨h1, h2, h3, h4⟩, if_pos (by omega), h.P a b h1 h3, h.P (a + 1) b (by omega) h3, show a + 1 + 2 * (X : Int) = a + 2 * X + 1 by omega]
  have sy : ∀ a b : Int, 0 ≤ a → a ≤ 2 * T'.m → 0 ≤ b → b < 2 * T'.n → T'.subY inv a b = T.subY inv (a + 2 * X) (b + 2 * Y) := by
    intro a b h1 h2 h3 h4
    unfold Spec.Tile.subY
    rw [if_pos ⟨h1, h2, h3, h4⟩, if_pos (by omega), h.P a b h1 h3, h.P a (b + 1) h1 (by omega), show b + 1 + 2 * (Y : Int) = b + 2 * Y + 1 by omega]
  have sa : ∀ a b : Int, 0 ≤ a → a < 2 * T'.m → 0 ≤ b → b < 2 * T'.n → T'.subA quad a b = T.subA quad (a + 2 * X) (b + 2 * Y) := by
    intro a b h1 h2 h3 h4
    unfold Spec.Tile.subA
    rw [if_pos ⟨h1, h2, h3, h4⟩, if_pos (by omega), h.P a b h1 h3, h.P (a + 1) b (by omega) h3, h.P a (b + 1) h1 (by omega), h.P (a + 1) (b + 1) (by omega) (by omega),
      show a + 1 + 2 * (X : Int) = a + 2 * X + 1 by omega, show b + 1 + 2 * (Y : Int) = b + 2 * Y + 1 by omega]
  unfold Spec.Undefined at hu
  cases f <;> simp only [List.mem_cons, List.not_mem_nil, reduceCtorEq, or_false, or_true, false_or, true_and, false_and, not_or] at hu <;>
    simp only [Spec.nrows, Spec.ncols] at hi hj <;>
    simp only [Spec.Tile.entry, Spec.kind, Spec.halfI, Spec.halfJ, Spec.nrows, Spec.ncols, if_true, Nat.zero_add, Nat.one_ne_zero, if_false] <;>
    (try rw [sx _ _ (by omega) (by omega) (by omega) (by omega), sx _ _ (by omega) (by omega) (by omega) (by omega)]) <;>
    (try rw [sy _ _ (by omega) (by omega) (by omega) (by omega), sy _ _ (by omega) (by omega) (by omega) (by omega)]) <;>
    (try rw [sa _ _ (by omega) (by omega) (by omega) (by omega), sa _ _ (by omega) (by omega) (by omega) (by omega),
      sa _ _ (by omega) (by omega) (by omega) (by omega), sa _ _ (by omega) (by omega) (by omega) (by omega)]) <;>
    (try rw [h.P _ _ (by omega) (by omega)]) <;>
    push_cast <;> ring_nf

theorem refined_part (geod : Geod F) (east : Bool) (ls lt : Nat) (hls : 0 < ls) (hlt : 0 < lt) (G : Nat → Nat → F × F) (x0 y0 a b : Nat) :
    Spec.refined geod east ls lt (Spec.meshPart G x0 y0) a b = Spec.refined geod east ls lt G (a + 2 * (x0 * ls)) (b + 2 * (y0 * lt)) := by
  have e1 : (a + 2 * (x0 * ls)) / (2 * ls) = x0 + a / (2 * ls) := by
    rw [Nat.mul_left_comm, Nat.mul_comm x0, Nat.add_mul_div_left _ _ (by omega), Nat.add_comm]
  have e2 : (b + 2 * (y0 * lt)) / (2 * lt) = y0 + b / (2 * lt) := by
    rw [Nat.mul_left_comm, Nat.mul_comm y0, Nat.add_mul_div_left _ _ (by omega), Nat.add_comm]
  have e3 : (a + 2 * (x0 * ls)) % (2 * ls) = a % (2 * ls) := by
    rw [Nat.mul_left_comm, Nat.mul_comm x0, Nat.add_mul_mod_self_left]
  have e4 : (b + 2 * (y0 * lt)) % (2 * lt) = b % (2 * lt) := by
    rw [Nat.mul_left_comm, Nat.mul_comm y0, Nat.add_mul_mod_self_left]
  unfold Spec.refined
  dsimp only
  rw [e1, e2, e3, e4]
  rfl

/-- The arrays of part of a mesh are part of its arrays, but for the terms that need more than the part. -/
theorem refinedGrid_part (geod : Geod F) (ls lt p q : Nat) (hls : 0 < ls) (hlt : 0 < lt) (G : Nat → Nat → F × F) (g g' : Grid F) (x0 y0 p' q' : Nat)
    (hp : x0 + p' ≤ p) (hq : y0 + q' ≤ q) (hg : Spec.RefinedGrid geod ls lt p q G g) (hg' : Spec.RefinedGrid geod ls lt p' q' (Spec.meshPart G x0 y0) g')
    (hl : Spec.SameLongitudes p q G x0 y0 p' q') (f : Field) :
    ∃ M M', g f = .arr M ∧ g' f = .arr M' ∧ ((Spec.kind f = .area → Spec.SameFormula geod ls lt p q G x0 y0 p' q') →
      ∀ i j, i < Spec.nrows f (p' * ls) → j < Spec.ncols f (q' * lt) → ¬ Spec.Undefined f (p' * ls) (q' * lt) i j →
        M'.get i j = M.get (x0 * ls + i) (y0 * lt + j)) := by
  obtain ⟨east, he, hv⟩ := hg
  obtain ⟨east', he', hv'⟩ := hg'
  have hsub : Spec.MeshNonNeg p q G → Spec.MeshNonNeg p' q' (Spec.meshPart G x0 y0) := fun h x y hx hy => h _ _ (by omega) (by omega)
  have hee : east' = east := by
    have h : east' = true ↔ east = true := he'.trans ((⟨hl, hsub⟩ : Spec.MeshNonNeg p' q' (Spec.meshPart G x0 y0) ↔ Spec.MeshNonNeg p q G).trans he.symm)
    cases east <;> cases east' <;> simp at h ⊢
  subst hee
  obtain ⟨M, hM, v1, v2, v⟩ := hv f
  obtain ⟨M', hM', v1', v2', v'⟩ := hv' f
  refine ⟨M, M', hM, hM', fun hform i j hi hj hu => ?_⟩
  have part : TilePart (Spec.refinedTile geod east' ls lt p q G) (Spec.refinedTile geod east' ls lt p' q' (Spec.meshPart G x0 y0)) (x0 * ls) (y0 * lt) := by
    refine ⟨?_, ?_, fun a b ha hb => ?_⟩
    · show x0 * ls + p' * ls ≤ p * ls
      rw [← Nat.add_mul]; exact Nat.mul_le_mul_right _ hp
    · show y0 * lt + q' * lt ≤ q * lt
      rw [← Nat.add_mul]; exact Nat.mul_le_mul_right _ hq
    · show Spec.refined geod east' ls lt _ a.toNat b.toNat = Spec.refined geod east' ls lt G (a + 2 * ((x0 * ls : Nat) : Int)).toNat (b + 2 * ((y0 * lt : Nat) : Int)).toNat
      rw [refined_part geod east' ls lt hls hlt]
      congr 1 <;> omega
  have r1 : x0 * ls + i < Spec.nrows f (p * ls) := by
    have : x0 * ls + p' * ls ≤ p * ls := part.m
    cases f <;> simp only [Spec.nrows] at hi ⊢ <;> omega
  have r2 : y0 * lt + j < Spec.ncols f (q * lt) := by
    have : y0 * lt + q' * lt ≤ q * lt := part.n
    cases f <;> simp only [Spec.ncols] at hj ⊢ <;> omega
  rw [v _ _ r1 r2, v' _ _ hi hj, part.entry _ _ f i j hi hj hu]
  by_cases hk : Spec.kind f = .area
  · rw [hform hk east' he]
  · unfold Spec.Tile.entry
    dsimp only
    cases hf : Spec.kind f <;> first | rfl | exact absurd hf hk

section regrid
variable [F64 F]

/-- The call takes the block between the source points `(u1,v1)` and `(u2,v2)`: they are the ones nearest to its corner points, and in opposite corners of a block. -/
structure Spec.Takes (geod : Geod F) (d : MatDict F) (a : RegridArgs F) (u1 v1 u2 v2 : Nat) : Prop where
  nw : Spec.UniqueNearest geod a.lon1 a.lat1 (d.xg, d.yg) u1 v1
  se : Spec.UniqueNearest geod a.lon2 a.lat2 (d.xg, d.yg) u2 v2
  u : u1 ≠ u2
  v : v1 ≠ v2

/-- The points `(a1,b1)` and `(a2,b2)` of the source are the upper left and lower right corner of the part of `p'` by `q'` cells of the block between `(u1,v1)`
and `(u2,v2)` that begins at its point `[x0,y0]`. -/
structure Spec.PartOf (u1 v1 u2 v2 a1 b1 a2 b2 x0 y0 p' q' : Nat) : Prop where
  nw : Spec.inBlock u1 v1 u2 v2 x0 (y0 + q') = (a1, b1)
  se : Spec.inBlock u1 v1 u2 v2 (x0 + p') y0 = (a2, b2)
  x : x0 + p' ≤ (Spec.blockSize u1 v1 u2 v2).1
  y : y0 + q' ≤ (Spec.blockSize u1 v1 u2 v2).2
  hp : 0 < p'
  hq : 0 < q'

theorem partOf_block {u1 v1 u2 v2 a1 b1 a2 b2 x0 y0 p' q' : Nat} (hu : u1 ≠ u2) (hv : v1 ≠ v2) (h : Spec.PartOf u1 v1 u2 v2 a1 b1 a2 b2 x0 y0 p' q') :
    a1 ≠ a2 ∧ b1 ≠ b2 ∧ Spec.blockSize a1 b1 a2 b2 = (p', q') ∧
    ∀ x y, x ≤ p' → y ≤ q' → Spec.inBlock a1 b1 a2 b2 x y = Spec.inBlock u1 v1 u2 v2 (x0 + x) (y0 + y) := by
  obtain ⟨h1, h2, hx, hy, hp, hq⟩ := h
  have ne : a1 ≠ a2 ∧ b1 ≠ b2 := by
    rcases block_cases u1 v1 u2 v2 hu hv with ⟨c, d, e, f⟩ | ⟨c, d, e, f⟩ | ⟨c, d, e, f⟩ | ⟨c, d, e, f⟩ <;>
      rw [f, Prod.mk.injEq] at h1 h2 <;> rw [e] at hx hy <;> dsimp only at hx hy <;> omega
  obtain ⟨-, -, e1, e2⟩ := block_block u1 v1 u2 v2 x0 (y0 + q') (x0 + p') y0 a1 b1 a2 b2 hu hv (by omega) hy hx (by omega) h1 h2 ne.1 ne.2
  have e0 : Spec.blockSize x0 (y0 + q') (x0 + p') y0 = (p', q') ∧ ∀ x y, Spec.inBlock x0 (y0 + q') (x0 + p') y0 x y = (x0 + x, y0 + y) := by
    rcases block_cases x0 (y0 + q') (x0 + p') y0 (by omega) (by omega) with ⟨c, d, e, f⟩ | ⟨c, d, e, f⟩ | ⟨c, d, e, f⟩ | ⟨c, d, e, f⟩
    · exact ⟨by rw [e, Prod.mk.injEq]; omega, f⟩
    · omega
    · omega
    · omega
  rw [e0.1] at e1
  refine ⟨ne.1, ne.2, e1.symm, fun x y hx hy => ?_⟩
  rw [← e1] at e2
  have := (e2 x y hx hy).2.2
  rw [e0.2] at this
  exact this.symm

/-- **C137**: regridding part of a block gives that part of the regridded block: every entry of the 16 arrays, except for the terms that need more than the part
(C24: zero). -/
theorem C137_part [ZeroLaw F] [FloatOrder F] (geod : Geod F) (fs : Files F) (fuel : Nat) (hf : 4 ≤ fuel) (d : MatDict F) (hw : d.xg.WF)
    (hs : Spec.SameShape d.xg d.yg) (a b : RegridArgs F) (ha : readSource fs a = .ok d) (hb : readSource fs b = .ok d) (u1 v1 u2 v2 a1 b1 a2 b2 : Nat)
    (ta : Spec.Takes geod d a u1 v1 u2 v2) (tb : Spec.Takes geod d b a1 b1 a2 b2) (x0 y0 p' q' : Nat) (hpart : Spec.PartOf u1 v1 u2 v2 a1 b1 a2 b2 x0 y0 p' q')
    (ls lt : Nat) (ls0 : 0 < ls) (lt0 : 0 < lt) (els : a.lonSub = ls) (elt : a.latSub = lt) (els' : b.lonSub = ls) (elt' : b.latSub = lt)
    (p q : Nat) (hpq : Spec.blockSize u1 v1 u2 v2 = (p, q)) (hl : Spec.SameLongitudes p q (Spec.blockPoint d.xg.mat d.yg.mat u1 v1 u2 v2) x0 y0 p' q') :
    ∃ dict₁ g dict₂ g', regrid geod fs fuel a = some (dict₁, .ok (g, ((p * ls : Nat) : Int), ((q * lt : Nat) : Int))) ∧
      regrid geod fs fuel b = some (dict₂, .ok (g', ((p' * ls : Nat) : Int), ((q' * lt : Nat) : Int))) ∧
      ∀ f, ∃ M M', g f = .arr M ∧ g' f = .arr M' ∧
        ((Spec.kind f = .area → Spec.SameFormula geod ls lt p q (Spec.blockPoint d.xg.mat d.yg.mat u1 v1 u2 v2) x0 y0 p' q') →
        ∀ i j, i < Spec.nrows f (p' * ls) → j < Spec.ncols f (q' * lt) → ¬ Spec.Undefined f (p' * ls) (q' * lt) i j →
          M'.get i j = M.get (x0 * ls + i) (y0 * lt + j)) := by
  obtain ⟨dict1, g, h1, R1⟩ := regrid_inBlock geod fs fuel hf a d ha hw hs u1 v1 u2 v2 ls lt ta.nw ta.se ta.u ta.v els elt ls0 lt0
  obtain ⟨dict2, g', h2, R2⟩ := regrid_inBlock geod fs fuel hf b d hb hw hs a1 b1 a2 b2 ls lt tb.nw tb.se tb.u tb.v els' elt' ls0 lt0
  obtain ⟨-, -, es, ei⟩ := partOf_block ta.u ta.v hpart
  have hx := hpart.x
  have hy := hpart.y
  rw [hpq] at h1 R1 hx hy
  rw [es] at h2 R2
  refine ⟨dict1, g, dict2, g', h1, h2, fun f => refinedGrid_part geod ls lt p q ls0 lt0 _ g g' x0 y0 p' q' hx hy R1 ?_ hl f⟩
  refine refinedGrid_agree geod ls lt p' q' ls0 lt0 _ _ g' (fun x y hx hy => ?_) R2
  unfold Spec.meshPart Spec.blockPoint
  rw [ei x y hx hy]

/-- Parts A and B of a block of `p` by `q` cells fill it, and B is on side `e` of A. -/
def Spec.FillBlock (p q xa ya pa qa xb yb pb qb : Nat) : Edge → Prop
  | .E => xa = 0 ∧ ya = 0 ∧ xb = pa ∧ yb = 0 ∧ qa = q ∧ qb = q ∧ p = pa + pb
  | .W => xb = 0 ∧ ya = 0 ∧ xa = pb ∧ yb = 0 ∧ qa = q ∧ qb = q ∧ p = pa + pb
  | .N => xa = 0 ∧ ya = 0 ∧ xb = 0 ∧ yb = qa ∧ pa = p ∧ pb = p ∧ q = qa + qb
  | .S => xa = 0 ∧ yb = 0 ∧ xb = 0 ∧ ya = qb ∧ pa = p ∧ pb = p ∧ q = qa + qb

/-- The terms on the common side that need points of both parts. -/
def Spec.SeamTerm (f : Field) (nia nja nib njb i j : Nat) : Edge → Prop
  | .E => f ∈ [.DXC, .DXV, .RAW, .RAZ] ∧ i = nia
  | .W => f ∈ [.DXC, .DXV, .RAW, .RAZ] ∧ i = nib
  | .N => f ∈ [.DYC, .DYU, .RAS, .RAZ] ∧ j = nja
  | .S => f ∈ [.DYC, .DYU, .RAS, .RAZ] ∧ j = njb

theorem undefined_side {f : Field} {p q i j : Nat} (h : Spec.Undefined f p q i j) : f ≠ .XG ∧ f ≠ .YG := by
  unfold Spec.Undefined at h
  constructor
  · rintro rfl
    simp at h
  · rintro rfl
    simp at h

theorem joined_part (f : Field) (e : Edge) {p q xa ya pa qa xb yb pb qb : Nat} (fill : Spec.FillBlock p q xa ya pa qa xb yb pb qb e) (A B M : Mat F)
    (hA : ∀ i j, i < Spec.nrows f pa → j < Spec.ncols f qa → ¬ Spec.Undefined f pa qa i j → A.get i j = M.get (xa + i) (ya + j))
    (hB : ∀ i j, i < Spec.nrows f pb → j < Spec.ncols f qb → ¬ Spec.Undefined f pb qb i j → B.get i j = M.get (xb + i) (yb + j)) (i j : Nat)
    (hi : i < Spec.nrows f p) (hj : j < Spec.ncols f q) (hseam : ¬ Spec.SeamTerm f pa qa pb qb i j e) (hd : ¬ Spec.Undefined f p q i j) :
    Spec.joinedAt pa qa pb qb e f A B i j = M.get i j := by
  have rr : ∀ k, Spec.nrows f k = k + Spec.nrows f 0 := fun k => by cases f <;> simp [Spec.nrows]
  have cc : ∀ k, Spec.ncols f k = k + Spec.ncols f 0 := fun k => by cases f <;> simp [Spec.ncols]
  rw [rr, cc] at hA hB
  rw [rr] at hi
  rw [cc] at hj
  unfold Spec.Undefined at hA hB hd
  unfold Spec.joinedAt
  have dX : f ∈ [Field.DXC, .DXV, .RAW, .RAZ] → i ≠ 0 ∧ i ≠ p := fun h => ⟨fun h' => hd (.inl ⟨h, .inl h'⟩), fun h' => hd (.inl ⟨h, .inr h'⟩)⟩
  have dY : f ∈ [Field.DYC, .DYU, .RAS, .RAZ] → j ≠ 0 ∧ j ≠ q := fun h => ⟨fun h' => hd (.inr ⟨h, .inl h'⟩), fun h' => hd (.inr ⟨h, .inr h'⟩)⟩
  clear hd
  cases e
  · simp only [Spec.FillBlock] at fill
    simp only [Spec.SeamTerm] at hseam
    obtain ⟨f1, f2, f3, f4, f5, f6, f7⟩ := fill
    dsimp only
    split <;> rename_i hif
    · rw [cc] at hif
      rw [hA _ _ (by omega) (by omega) (by
        rintro (⟨hX, h⟩ | ⟨hY, h⟩)
        · have := dX hX
          omega
        · have := dY hY
          have : ¬ j = qa := fun h => hseam ⟨hY, h⟩
          omega)]
      congr 1 <;> omega
    · rw [cc] at hif
      rw [hB _ _ (by omega) (by omega) (by
        rintro (⟨hX, h⟩ | ⟨hY, h⟩)
        · have := dX hX
          omega
        · have := dY hY
          have : ¬ j = qa := fun h => hseam ⟨hY, h⟩
          omega)]
      congr 1 <;> omega
  · simp only [Spec.FillBlock] at fill
    simp only [Spec.SeamTerm] at hseam
    obtain ⟨f1, f2, f3, f4, f5, f6, f7⟩ := fill
    dsimp only
    split <;> rename_i hif
    · rw [hA _ _ (by omega) (by omega) (by
        rintro (⟨hX, h⟩ | ⟨hY, h⟩)
        · have := dX hX
          omega
        · have := dY hY
          have : ¬ j = qb := fun h => hseam ⟨hY, h⟩
          omega)]
      congr 1 <;> omega
    · rw [hB _ _ (by omega) (by omega) (by
        rintro (⟨hX, h⟩ | ⟨hY, h⟩)
        · have := dX hX
          omega
        · have := dY hY
          have : ¬ j = qb := fun h => hseam ⟨hY, h⟩
          omega)]
      congr 1 <;> omega
  · simp only [Spec.FillBlock] at fill
    simp only [Spec.SeamTerm] at hseam
    obtain ⟨f1, f2, f3, f4, f5, f6, f7⟩ := fill
    dsimp only
    split <;> rename_i hif
    · rw [rr] at hif
      rw [hA _ _ (by omega) (by omega) (by
        rintro (⟨hX, h⟩ | ⟨hY, h⟩)
        · have := dX hX
          have : ¬ i = pa := fun h => hseam ⟨hX, h⟩
          omega
        · have := dY hY
          omega)]
      congr 1 <;> omega
    · rw [rr] at hif
      rw [hB _ _ (by omega) (by omega) (by
        rintro (⟨hX, h⟩ | ⟨hY, h⟩)
        · have := dX hX
          have : ¬ i = pa := fun h => hseam ⟨hX, h⟩
          omega
        · have := dY hY
          omega)]
      congr 1 <;> omega
  · simp only [Spec.FillBlock] at fill
    simp only [Spec.SeamTerm] at hseam
    obtain ⟨f1, f2, f3, f4, f5, f6, f7⟩ := fill
    dsimp only
    split <;> rename_i hif
    · rw [hA _ _ (by omega) (by omega) (by
        rintro (⟨hX, h⟩ | ⟨hY, h⟩)
        · have := dX hX
          have : ¬ i = pb := fun h => hseam ⟨hX, h⟩
          omega
        · have := dY hY
          omega)]
      congr 1 <;> omega
    · rw [hB _ _ (by omega) (by omega) (by
        rintro (⟨hX, h⟩ | ⟨hY, h⟩)
        · have := dX hX
          have : ¬ i = pb := fun h => hseam ⟨hX, h⟩
          omega
        · have := dY hY
          omega)]
      congr 1 <;> omega

/-- **C137**, with `stitch`: a block regridded in two parts that are written to files and stitched is the block regridded in one call, except for the terms on the
common side that need points of both parts, and where the result of the one call is zero. -/
theorem C137_stitched [LawfulF64 F] [ZeroLaw F] [FloatOrder F] (geod : Geod F) (fs : Files F) (fuel : Nat) (hf : 4 ≤ fuel) (d : MatDict F) (hw : d.xg.WF)
    (hs : Spec.SameShape d.xg d.yg) (w a b : RegridArgs F) (hw' : readSource fs w = .ok d) (ha : readSource fs a = .ok d) (hb : readSource fs b = .ok d)
    (u1 v1 u2 v2 a1 b1 a2 b2 a3 b3 a4 b4 : Nat)
    (tw : Spec.Takes geod d w u1 v1 u2 v2) (ta : Spec.Takes geod d a a1 b1 a2 b2) (tb : Spec.Takes geod d b a3 b3 a4 b4)
    (xa ya pa qa xb yb pb qb : Nat) (partA : Spec.PartOf u1 v1 u2 v2 a1 b1 a2 b2 xa ya pa qa) (partB : Spec.PartOf u1 v1 u2 v2 a3 b3 a4 b4 xb yb pb qb)
    (ls lt : Nat) (ls0 : 0 < ls) (lt0 : 0 < lt) (els : w.lonSub = ls) (elt : w.latSub = lt) (els1 : a.lonSub = ls) (elt1 : a.latSub = lt)
    (els2 : b.lonSub = ls) (elt2 : b.latSub = lt) (p q : Nat) (hpq : Spec.blockSize u1 v1 u2 v2 = (p, q))
    (la : Spec.SameLongitudes p q (Spec.blockPoint d.xg.mat d.yg.mat u1 v1 u2 v2) xa ya pa qa)
    (lb : Spec.SameLongitudes p q (Spec.blockPoint d.xg.mat d.yg.mat u1 v1 u2 v2) xb yb pb qb)
    (e e' : Edge) (fill : Spec.FillBlock p q xa ya pa qa xb yb pb qb e)
    -- the parts as files
    (dict₁ dict₂ : Option (MatDict F)) (ga gb : Grid F) (na ma nb mb : Int) (ra : regrid geod fs fuel a = some (dict₁, .ok (ga, na, ma)))
    (rb : regrid geod fs fuel b = some (dict₂, .ok (gb, nb, mb))) (oa ob fa fb : List Byte)
    (wa : writeMitgrid oa ga (pa * ls) (qa * lt) = (fa, .ok ())) (wb : writeMitgrid ob gb (pb * ls) (qb * lt) = (fb, .ok ()))
    (strict : Bool) (x c : Grid F) (nc mc : Nat) (hx : addfringe geod strict fa (pa * ls) (qa * lt) fb (pb * ls) (qb * lt) = .ok (e, e', x))
    (hc : stitch geod strict fa (pa * ls) (qa * lt) fb (pb * ls) (qb * lt) = .ok (c, nc, mc)) :
    ∃ dict g, regrid geod fs fuel w = some (dict, .ok (g, (nc : Int), (mc : Int))) ∧
      ∀ f, ∃ M C, g f = .arr M ∧ c f = .arr C ∧ C.rows = M.rows ∧ C.cols = M.cols ∧
        ((Spec.kind f = .area → Spec.SameFormula geod ls lt p q (Spec.blockPoint d.xg.mat d.yg.mat u1 v1 u2 v2) xa ya pa qa ∧
          Spec.SameFormula geod ls lt p q (Spec.blockPoint d.xg.mat d.yg.mat u1 v1 u2 v2) xb yb pb qb) →
        ∀ i j, i < M.rows → j < M.cols → ¬ Spec.SeamTerm f (pa * ls) (qa * lt) (pb * ls) (qb * lt) i j e →
          (PyFloat.isZero (M.get i j) = false ∨ f = .XG ∨ f = .YG) → C.get i j = M.get i j) := by
  obtain ⟨dict, g, d1, ga', k1, k2, vA⟩ := C137_part geod fs fuel hf d hw hs w a hw' ha u1 v1 u2 v2 a1 b1 a2 b2 tw ta xa ya pa qa partA ls lt ls0 lt0 els elt els1 elt1 p q hpq la
  rw [ra] at k2; cases k2
  obtain ⟨_, _, d2, gb', k3, k4, vB⟩ := C137_part geod fs fuel hf d hw hs w b hw' hb u1 v1 u2 v2 a3 b3 a4 b4 tw tb xb yb pb qb partB ls lt ls0 lt0 els elt els2 elt2 p q hpq lb
  rw [rb] at k4; cases k4
  rw [k1] at k3; cases k3
  -- the result of one call
  obtain ⟨_, _, k5, R⟩ := regrid_inBlock geod fs fuel hf w d hw' hw hs u1 v1 u2 v2 ls lt tw.nw tw.se tw.u tw.v els elt ls0 lt0
  rw [hpq] at k5 R
  rw [k1] at k5; cases k5
  have comp : ∀ (args : RegridArgs F) (t1 t2 t3 t4 : Nat) dd (gg : Grid F) n1 n2 (pp qq : Nat), readSource fs args = .ok d → Spec.Takes geod d args t1 t2 t3 t4 → args.lonSub = ls →
      args.latSub = lt → Spec.blockSize t1 t2 t3 t4 = (pp, qq) → regrid geod fs fuel args = some (dd, .ok (gg, n1, n2)) → Spec.Complete gg (pp * ls) (qq * lt) := by
    intro args t1 t2 t3 t4 dd gg n1 n2 pp qq h1 h2 h3 h4 h5 h6
    obtain ⟨_, _, k, ⟨east, -, hv⟩⟩ := regrid_inBlock geod fs fuel hf args d h1 hw hs t1 t2 t3 t4 ls lt h2.nw h2.se h2.u h2.v h3 h4 ls0 lt0
    rw [h6] at k; cases k
    rw [h5] at hv
    intro f
    obtain ⟨M, hM, r, cc, -⟩ := hv f
    exact ⟨M, hM, r, cc⟩
  have cA := comp a a1 b1 a2 b2 _ _ _ _ pa qa ha ta els1 elt1 (partOf_block tw.u tw.v partA).2.2.1 ra
  have cB := comp b a3 b3 a4 b4 _ _ _ _ pb qb hb tb els2 elt2 (partOf_block tw.u tw.v partB).2.2.1 rb
  have cW := comp w u1 v1 u2 v2 _ _ _ _ p q hw' tw els elt hpq k1
  obtain ⟨VA, hVA, -⟩ := Complete.choose cA
  obtain ⟨VB, hVB, -⟩ := Complete.choose cB
  obtain ⟨fA, rfA, kA⟩ := file_keepsOf ga (pa * ls) (qa * lt) cA strict oa fa wa VA (fun f => ⟨VA f, hVA f, fun _ _ _ _ _ => rfl⟩)
  obtain ⟨fB, rfB, kB⟩ := file_keepsOf gb (pb * ls) (qb * lt) cB strict ob fb wb VB (fun f => ⟨VB f, hVB f, fun _ _ _ _ _ => rfl⟩)
  obtain ⟨cells, opp, size, cC, kC⟩ := stitch_keepsOf geod strict fa fb _ _ _ _ nc mc c x fA fB e e' hc hx rfA rfB VA VB kA kB
  have sz : nc = p * ls ∧ mc = q * lt := by
    cases e <;> simp only [Spec.FillBlock] at fill <;> simp only [Spec.joinedSize, Prod.mk.injEq] at size <;> obtain ⟨s1, s2⟩ := size <;>
      obtain ⟨f1, f2, f3, f4, f5, f6, f7⟩ := fill <;> rw [s1, s2, f7]
    · rw [f5, Nat.add_mul]; exact ⟨rfl, rfl⟩
    · rw [f5, Nat.add_mul]; exact ⟨rfl, rfl⟩
    · rw [f5, Nat.add_mul]; exact ⟨rfl, rfl⟩
    · rw [f5, Nat.add_mul]; exact ⟨rfl, rfl⟩
  obtain ⟨rfl, rfl⟩ := sz
  refine ⟨dict, g, k1, fun f => ?_⟩
  obtain ⟨M, MA, e1, e2, v1⟩ := vA f
  obtain ⟨M2, MB, e3, e4, v2⟩ := vB f
  rw [e1] at e3; cases e3
  rw [hVA f] at e2; cases e2
  rw [hVB f] at e4; cases e4
  obtain ⟨C, e5, kC⟩ := kC f
  obtain ⟨M3, e6, Mr, Mc⟩ := cW f
  rw [e1] at e6; cases e6
  obtain ⟨C3, e6, Cr, Cc⟩ := cC f
  rw [e5] at e6; cases e6
  refine ⟨M, C, e1, e5, by omega, by omega, fun hform i j hi hj hseam hnz => ?_⟩
  obtain ⟨Z, e7, hz⟩ := undefined_zero geod ls lt p q _ g R f
  rw [e1] at e7; cases e7
  have defd : ¬ Spec.Undefined f (p * ls) (q * lt) i j := by
    intro hu
    rcases hnz with h | h | h
    · rw [hz i j (by omega) (by omega) hu, ZeroLaw.isZero_zero] at h; cases h
    · exact (undefined_side hu).1 h
    · exact (undefined_side hu).2 h
  have key : Spec.joinedAt (pa * ls) (qa * lt) (pb * ls) (qb * lt) e f (VA f) (VB f) i j = M.get i j := by
    have fill' : Spec.FillBlock (p * ls) (q * lt) (xa * ls) (ya * lt) (pa * ls) (qa * lt) (xb * ls) (yb * lt) (pb * ls) (qb * lt) e := by
      cases e <;> simp only [Spec.FillBlock] at fill ⊢ <;> obtain ⟨f1, f2, f3, f4, f5, f6, f7⟩ := fill <;> subst f1 f2 f3 f4 f5 f6 f7 <;> simp [Nat.add_mul]
    exact joined_part f e fill' (VA f) (VB f) M (v1 fun h => (hform h).1) (v2 fun h => (hform h).2) i j (by omega) (by omega) hseam defd
  have := kC i j (by omega) (by omega) (by
    show PyFloat.isZero (Spec.joinedAt _ _ _ _ e f (VA f) (VB f) i j) = false ∨ _
    rw [key]; exact hnz)
  rw [this]
  exact key

end regrid

/-! ## A case: the grid of 4 x 3 points `exWide`, whole and in two parts with 1 and 2 cells in x -/

def exWideCall (lon1 lat1 lon2 lat2 : Toy) : RegridArgs Toy := { exArgs lon1 lat1 lon2 lat2 2 1 with matrices := some exWide }

theorem exWhole : Spec.Takes Toy.geod exWide (exWideCall 0 20 30 0) 0 2 3 0 :=
  ⟨toy_nearest exWide _ _ _ _ (by decide) (by decide) (by decide +kernel) (by decide +kernel),
    toy_nearest exWide _ _ _ _ (by decide) (by decide) (by decide +kernel) (by decide +kernel), by decide, by decide⟩

theorem exPartA : Spec.Takes Toy.geod exWide (exWideCall 0 20 10 0) 0 2 1 0 ∧ Spec.PartOf 0 2 3 0 0 2 1 0 0 0 1 2 :=
  ⟨⟨toy_nearest exWide _ _ _ _ (by decide) (by decide) (by decide +kernel) (by decide +kernel),
    toy_nearest exWide _ _ _ _ (by decide) (by decide) (by decide +kernel) (by decide +kernel), by decide, by decide⟩,
    ⟨rfl, rfl, by decide, by decide, by decide, by decide⟩⟩

theorem exPartB : Spec.Takes Toy.geod exWide (exWideCall 10 20 30 0) 1 2 3 0 ∧ Spec.PartOf 0 2 3 0 1 2 3 0 1 0 2 2 :=
  ⟨⟨toy_nearest exWide _ _ _ _ (by decide) (by decide) (by decide +kernel) (by decide +kernel),
    toy_nearest exWide _ _ _ _ (by decide) (by decide) (by decide +kernel) (by decide +kernel), by decide, by decide⟩,
    ⟨rfl, rfl, by decide, by decide, by decide, by decide⟩⟩

theorem exNonNeg : Spec.MeshNonNeg 3 2 (Spec.blockPoint exWide.xg.mat exWide.yg.mat 0 2 3 0) := by
  intro x y hx hy
  have key : ((List.range 4).all fun x => (List.range 3).all fun y =>
      !PyFloat.lt (Spec.blockPoint exWide.xg.mat exWide.yg.mat 0 2 3 0 x y).1 Arith.zero) = true := by decide +kernel
  rw [List.all_eq_true] at key
  have h1 := key x (List.mem_range.2 (by omega))
  rw [List.all_eq_true] at h1
  simpa using h1 y (List.mem_range.2 (by omega))

theorem exFormula : Spec.SameFormula Toy.geod 2 1 3 2 (Spec.blockPoint exWide.xg.mat exWide.yg.mat 0 2 3 0) 0 0 1 2 ∧
    Spec.SameFormula Toy.geod 2 1 3 2 (Spec.blockPoint exWide.xg.mat exWide.yg.mat 0 2 3 0) 1 0 2 2 := by
  constructor <;> intro east h <;> rw [show east = true from h.2 exNonNeg] <;> decide +kernel

/-- The eastern part is part of the whole, all 16 arrays. -/
example : ∃ dict₁ g dict₂ g', regrid Toy.geod exFiles 4 (exWideCall 0 20 30 0) = some (dict₁, .ok (g, 6, 2)) ∧
    regrid Toy.geod exFiles 4 (exWideCall 10 20 30 0) = some (dict₂, .ok (g', 4, 2)) ∧
    ∀ f, ∃ M M', g f = .arr M ∧ g' f = .arr M' ∧ ∀ i j, i < Spec.nrows f 4 → j < Spec.ncols f 2 → ¬ Spec.Undefined f 4 2 i j → M'.get i j = M.get (2 + i) (0 + j) := by
  obtain ⟨d1, g, d2, g', h1, h2, h⟩ := C137_part Toy.geod exFiles 4 (by decide) exWide (NArr.ofC_wf _) ⟨rfl, rfl, by decide, by decide⟩ (exWideCall 0 20 30 0)
    (exWideCall 10 20 30 0) rfl rfl 0 2 3 0 1 2 3 0 exWhole exPartB.1 1 0 2 2 exPartB.2 2 1 (by decide) (by decide) rfl rfl rfl rfl 3 2 rfl (fun _ => exNonNeg)
  refine ⟨d1, g, d2, g', h1, h2, fun f => ?_⟩
  obtain ⟨M, M', e1, e2, v⟩ := h f
  exact ⟨M, M', e1, e2, v fun _ => exFormula.2⟩

/-- The file of a call with `ni` by `nj` cells. -/
def exOut (a : RegridArgs Toy) (ni nj : Nat) : List Byte :=
  match regrid Toy.geod exFiles 4 a with
  | some (_, .ok (g, _, _)) => (writeMitgrid [] g ni nj).1
  | _ => []

set_option maxRecDepth 40000 in
/-- The two parts are stitched, the second one on the eastern side of the first. -/
example : (addfringe Toy.geod true (exOut (exWideCall 0 20 10 0) 2 2) 2 2 (exOut (exWideCall 10 20 30 0) 4 2) 4 2).toOption.map (fun r => (r.1, r.2.1)) = some (.E, .W) ∧
    (stitch Toy.geod true (exOut (exWideCall 0 20 10 0) 2 2) 2 2 (exOut (exWideCall 10 20 30 0) 4 2) 4 2).toOption.map (fun r => r.2) = some (6, 2) ∧
    Spec.FillBlock 3 2 0 0 1 2 1 0 2 2 .E := by
  refine ⟨by decide +kernel, by decide +kernel, ?_⟩
  unfold Spec.FillBlock
  decide

end SG
