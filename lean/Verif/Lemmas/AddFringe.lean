import Verif.Model.Stitch
import Verif.Props.MatchEdges
import Verif.Props.GridIO
import Verif.Lemmas.Regrid
/-! # Lemmas about `addfringe` -/

set_option linter.unusedSectionVars false

namespace SG
variable {F : Type} [PyFloat F]

/-! ### Specification of the recomputed tile -/

/-- The great circle midpoint, its longitude shifted by 360 if negative and `wrap`. -/
def Spec.mid (geod : Geod F) (wrap : Bool) (p q : F × F) : F × F :=
  let r := geod.npt p.1 p.2 q.1 q.2 1 0
  (if wrap && PyFloat.lt r.1 Arith.zero then r.1 +ₚ PyFloat.c360 else r.1, r.2)

/-- Half-cell points of a tile given by its corner points alone: on grid lines `b` even, corner points and midpoints in x;
in between, midpoints in y. -/
def Spec.halfPt (geod : Geod F) (wrap : Bool) (xg yg : Mat F) (a b : Nat) : F × F :=
  let line (j : Nat) : F × F :=
    if a % 2 = 0 then Spec.at (xg, yg) (a / 2) j
    else Spec.mid geod wrap (Spec.at (xg, yg) (a / 2) j) (Spec.at (xg, yg) (a / 2 + 1) j)
  if b % 2 = 0 then line (b / 2) else Spec.mid geod wrap (line (b / 2)) (line (b / 2 + 1))

/-- The tile with these half-cell points. -/
def Spec.halfTile (geod : Geod F) (wrap : Bool) (xg yg : Mat F) (m n : Nat) : Spec.Tile F :=
  ⟨m, n, fun a b => Spec.halfPt geod wrap xg yg a.toNat b.toNat⟩

theorem sub_eq_mid (geod : Geod F) (wrap : Bool) (p q : F × F) : sub geod wrap 1 0 p q = Spec.mid geod wrap p q := by
  unfold sub Spec.mid adjustLon
  cases wrap
  · rfl
  · dsimp only
    rw [Bool.true_and]
    rfl

/-! ### The tile quantities depend on the half-cell points of the tile only -/

def TileAgree (T T' : Spec.Tile F) : Prop :=
  T.m = T'.m ∧ T.n = T'.n ∧ ∀ a b : Int, 0 ≤ a → a ≤ 2 * T.m → 0 ≤ b → b ≤ 2 * T.n → T.P a b = T'.P a b

theorem subX_agree {T T' : Spec.Tile F} (h : TileAgree T T') (inv) (a b : Int) : T.subX inv a b = T'.subX inv a b := by
  unfold Spec.Tile.subX
  obtain ⟨h1, h2, h3⟩ := h
  rw [← h1, ← h2]
  split
  · rw [h3 a b (by omega) (by omega) (by omega) (by omega), h3 (a + 1) b (by omega) (by omega) (by omega) (by omega)]
  · rfl

theorem subY_agree {T T' : Spec.Tile F} (h : TileAgree T T') (inv) (a b : Int) : T.subY inv a b = T'.subY inv a b := by
  unfold Spec.Tile.subY
  obtain ⟨h1, h2, h3⟩ := h
  rw [← h1, ← h2]
  split
  · rw [h3 a b (by omega) (by omega) (by omega) (by omega), h3 a (b + 1) (by omega) (by omega) (by omega) (by omega)]
  · rfl

theorem subA_agree {T T' : Spec.Tile F} (h : TileAgree T T') (quad) (a b : Int) : T.subA quad a b = T'.subA quad a b := by
  unfold Spec.Tile.subA
  obtain ⟨h1, h2, h3⟩ := h
  rw [← h1, ← h2]
  split
  · rw [h3 a b (by omega) (by omega) (by omega) (by omega), h3 a (b + 1) (by omega) (by omega) (by omega) (by omega),
      h3 (a + 1) b (by omega) (by omega) (by omega) (by omega),
      h3 (a + 1) (b + 1) (by omega) (by omega) (by omega) (by omega)]
  · rfl

theorem usePlanar_agree {T T' : Spec.Tile F} (h : TileAgree T T') (inv) : T.usePlanar inv = T'.usePlanar inv := by
  have hx : T.xLengths inv = T'.xLengths inv := by
    unfold Spec.Tile.xLengths
    simp only [subX_agree h]
    rw [h.1, h.2.1]
  have hy : T.yLengths inv = T'.yLengths inv := by
    unfold Spec.Tile.yLengths
    simp only [subY_agree h]
    rw [h.1, h.2.1]
  unfold Spec.Tile.usePlanar
  rw [hx, hy]

theorem half_range (f : Field) (i j m n : Nat) (hi : i < Spec.nrows f m) (hj : j < Spec.ncols f n) :
    0 ≤ Spec.halfI f i ∧ Spec.halfI f i ≤ 2 * m ∧ 0 ≤ Spec.halfJ f j ∧ Spec.halfJ f j ≤ 2 * n := by
  cases f <;> simp only [Spec.nrows, Spec.ncols] at hi hj <;> simp [Spec.halfI, Spec.halfJ, Spec.nrows, Spec.ncols] <;> omega

theorem entry_agree {T T' : Spec.Tile F} (h : TileAgree T T') (inv quad) (f : Field) (i j : Nat)
    (hi : i < Spec.nrows f T.m) (hj : j < Spec.ncols f T.n) : T.entry inv quad f i j = T'.entry inv quad f i j := by
  obtain ⟨r1, r2, r3, r4⟩ := half_range f i j T.m T.n hi hj
  unfold Spec.Tile.entry
  dsimp only
  simp only [subX_agree h, subY_agree h, subA_agree h, h.2.2 _ _ r1 r2 r3 r4]

/-! ### The recomputation -/

theorem setInner_ok (m m' : Mat F) (e : Edge) (v : Vec F) (h : m.setInner (joinSlice e) v = .ok m') :
    m'.rows = m.rows ∧ m'.cols = m.cols ∧
      ∀ r c, 1 ≤ r → r + 1 < m.rows → 1 ≤ c → c + 1 < m.cols → m'.get r c = m.get r c := by
  have p0 : ∀ n k, pyIdx n 0 = some k → k = 0 := by
    intro n k h
    unfold pyIdx at h
    rw [if_pos (by omega)] at h
    split at h
    · cases h; rfl
    · cases h
  have p1 : ∀ n k, pyIdx n (-1) = some k → k + 1 = n := by
    intro n k h
    unfold pyIdx at h
    rw [if_neg (by omega)] at h
    split at h
    · cases h; omega
    · cases h
  cases e <;> simp only [joinSlice, Mat.setInner] at h <;> split at h <;> (try cases h; done) <;> split at h <;>
    (try cases h; done) <;> rename_i k hk hl <;> cases h <;> refine ⟨rfl, rfl, fun r c a1 a2 a3 a4 => ?_⟩ <;>
    dsimp only <;> first
      | (have := p1 _ _ hk; rw [if_neg (by omega)])
      | (have := p0 _ _ hk; rw [if_neg (by omega)])

/-- What holds of all entries after an edge has been put into a ring of zeros. -/
theorem setInner_all (P : F → Prop) (z : F) (m m' : Mat F) (e : Edge) (v : Vec F) (hr : 2 ≤ m.rows) (hc : 2 ≤ m.cols)
    (hz : ∀ r c, r < m.rows → c < m.cols → r = 0 ∨ r + 1 = m.rows ∨ c = 0 ∨ c + 1 = m.cols → m.get r c = z)
    (h : m.setInner (joinSlice e) v = .ok m') :
    (∀ r c, r < m.rows → c < m.cols → P (m'.get r c)) ↔
      (∀ r c, 1 ≤ r → r + 1 < m.rows → 1 ≤ c → c + 1 < m.cols → P (m.get r c)) ∧ (∀ k, k < v.len → P (v.get k)) ∧ P z := by
  obtain ⟨d, e1, e2⟩ : ∃ d : Nat × Nat → Option Nat, (∀ r c, m'.get r c = match d (r, c) with | some k => v.get k | none => m.get r c) ∧
      (∀ r c, r < m.rows → c < m.cols → ∀ k, d (r, c) = some k → k < v.len ∧ (r = 0 ∨ r + 1 = m.rows ∨ c = 0 ∨ c + 1 = m.cols)) ∧
      (∀ k, k < v.len → ∃ r c, r < m.rows ∧ c < m.cols ∧ d (r, c) = some k) ∧ d (0, 0) = none := by
    have z : ∀ n : Nat, 2 ≤ n → pyIdx n 0 = some 0 := by
      intro n hn; unfold pyIdx; rw [if_pos (by omega), if_pos (by omega)]; rfl
    have l : ∀ n : Nat, 2 ≤ n → pyIdx n (-1) = some (n - 1) := by
      intro n hn; unfold pyIdx; rw [if_neg (by omega), if_pos (by omega)]; congr 1; omega
    have cases2 : (∃ i, i < m.rows ∧ (i = 0 ∨ i + 1 = m.rows) ∧ v.len = m.cols - 2 ∧
        ∀ r c, m'.get r c = if r = i ∧ 1 ≤ c ∧ c + 1 < m.cols then v.get (c - 1) else m.get r c) ∨
        ∃ i, i < m.cols ∧ (i = 0 ∨ i + 1 = m.cols) ∧ v.len = m.rows - 2 ∧
        ∀ r c, m'.get r c = if c = i ∧ 1 ≤ r ∧ r + 1 < m.rows then v.get (r - 1) else m.get r c := by
      cases e <;> simp only [joinSlice, Mat.setInner, z _ hr, z _ hc, l _ hr, l _ hc] at h <;> split at h <;> (try cases h; done) <;>
        rename_i hl <;> cases h <;> first
          | exact .inl ⟨_, by omega, by omega, hl, fun _ _ => rfl⟩
          | exact .inr ⟨_, by omega, by omega, hl, fun _ _ => rfl⟩
    rcases cases2 with ⟨i, hi, hi', hl, hm⟩ | ⟨i, hi, hi', hl, hm⟩
    · refine ⟨fun p => if p.1 = i ∧ 1 ≤ p.2 ∧ p.2 + 1 < m.cols then some (p.2 - 1) else none, fun r c => ?_, fun r c h1 h2 k hk => ?_,
        fun k hk => ⟨i, k + 1, hi, by omega, ?_⟩, if_neg (by omega)⟩
      · rw [hm]; dsimp only; split <;> rfl
      · dsimp only at hk
        split at hk
        · cases hk; omega
        · cases hk
      · dsimp only; rw [if_pos (by omega), Nat.add_sub_cancel]
    · refine ⟨fun p => if p.2 = i ∧ 1 ≤ p.1 ∧ p.1 + 1 < m.rows then some (p.1 - 1) else none, fun r c => ?_, fun r c h1 h2 k hk => ?_,
        fun k hk => ⟨k + 1, i, by omega, hi, ?_⟩, if_neg (by omega)⟩
      · rw [hm]; dsimp only; split <;> rfl
      · dsimp only at hk
        split at hk
        · cases hk; omega
        · cases hk
      · dsimp only; rw [if_pos (by omega), Nat.add_sub_cancel]
  obtain ⟨e2, e3, e4⟩ := e2
  constructor
  · intro hP
    refine ⟨fun r c h1 h2 h3 h4 => ?_, fun k hk => ?_, ?_⟩
    · have := hP r c (by omega) (by omega)
      rw [e1] at this
      cases hd : d (r, c) with
      | none => rw [hd] at this; exact this
      | some k => have := (e2 r c (by omega) (by omega) k hd).2; omega
    · obtain ⟨r, c, h1, h2, hd⟩ := e3 k hk
      have := hP r c h1 h2
      rw [e1, hd] at this
      exact this
    · have := hP 0 0 (by omega) (by omega)
      rw [e1, e4] at this
      rw [← hz 0 0 (by omega) (by omega) (by omega)]
      exact this
  · rintro ⟨h1, h2, h3⟩ r c hr' hc'
    rw [e1]
    cases hd : d (r, c) with
    | some k => exact h2 k (e2 r c hr' hc' k hd).1
    | none =>
      show P (m.get r c)
      by_cases hb : r = 0 ∨ r + 1 = m.rows ∨ c = 0 ∨ c + 1 = m.cols
      · rw [hz r c hr' hc' hb]; exact h3
      · exact h1 r c (by omega) (by omega) (by omega) (by omega)

theorem setInner_succeeds (m : Mat F) (e : Edge) (v : Vec F) (hr : 0 < m.rows) (hc : 0 < m.cols)
    (hl : v.len + 2 = match e with | .E | .W => m.cols | .N | .S => m.rows) :
    ∃ m', m.setInner (joinSlice e) v = .ok m' := by
  have z : ∀ n : Nat, 0 < n → pyIdx n 0 = some 0 := by
    intro n hn; unfold pyIdx; rw [if_pos (by omega), if_pos (by omega)]; rfl
  have l : ∀ n : Nat, 0 < n → pyIdx n (-1) = some (n - 1) := by
    intro n hn; unfold pyIdx; rw [if_neg (by omega), if_pos (by omega)]; congr 1; omega
  cases e <;> simp only [joinSlice, Mat.setInner, z _ hr, z _ hc, l _ hr, l _ hc] at hl ⊢ <;>
    rw [if_pos (by omega)] <;> exact ⟨_, rfl⟩

theorem setInner_len (m m' : Mat F) (e : Edge) (v : Vec F) (h : m.setInner (joinSlice e) v = .ok m') :
    v.len = (match e with | .E | .W => m.cols | .N | .S => m.rows) - 2 := by
  cases e <;> simp only [joinSlice, Mat.setInner] at h <;> split at h <;> (try cases h; done) <;> split at h <;>
    first | assumption | cases h

/-- The copy loop of `addfringe`. -/
theorem copyCorners (aXG aYG : Mat F) (m n : Nat) (h1 : aXG.rows = m + 1) (h2 : aXG.cols = n + 1)
    (h3 : aYG.rows = m + 1) (h4 : aYG.cols = n + 1) :
    ∃ s, forIJ (List.range (m + 1)) (List.range (n + 1))
      (fun (s : Mat F × Mat F) i j => do
        let x ← aXG.at' i j
        let y ← aYG.at' i j
        let xg ← s.1.setAt (1 + 2 * i) (1 + 2 * j) x
        let yg ← s.2.setAt (1 + 2 * i) (1 + 2 * j) y
        return (xg, yg)) (Mat.full (2 * m + 3) (2 * n + 3) Arith.zero, Mat.full (2 * m + 3) (2 * n + 3) Arith.zero) =
        .ok s ∧ (s.1.rows = 2 * m + 3 ∧ s.1.cols = 2 * n + 3 ∧ s.2.rows = 2 * m + 3 ∧ s.2.cols = 2 * n + 3) ∧
      (∀ i j, i ≤ m → j ≤ n → Spec.at s (1 + 2 * i) (1 + 2 * j) = Spec.at (aXG, aYG) i j) ∧
      ∀ r c, (∃ i j, i ≤ m ∧ j ≤ n ∧ r = 1 + 2 * i ∧ c = 1 + 2 * j) ∨ Spec.at s r c = (Arith.zero, Arith.zero) := by
  let owner : Nat → Nat → Option (Nat × Nat) := fun r c =>
    if r % 2 = 1 ∧ c % 2 = 1 then some ((r - 1) / 2, (c - 1) / 2) else none
  have own : ∀ r c i j, owner r c = some (i, j) ↔ r = 1 + 2 * i ∧ c = 1 + 2 * j := by
    intro r c i j
    show (if r % 2 = 1 ∧ c % 2 = 1 then some ((r - 1) / 2, (c - 1) / 2) else none) = _ ↔ _
    split
    · rw [Option.some.injEq, Prod.mk.injEq]; omega
    · constructor
      · intro h; cases h
      · omega
  obtain ⟨s, e, g, v⟩ := forIJ_paint (m + 1) (n + 1)
    (fun (s : Mat F × Mat F) i j => do
        let x ← aXG.at' i j
        let y ← aYG.at' i j
        let xg ← s.1.setAt (1 + 2 * i) (1 + 2 * j) x
        let yg ← s.2.setAt (1 + 2 * i) (1 + 2 * j) y
        return (xg, yg))
    (fun s r c => Spec.at s r c)
    (fun s => s.1.rows = 2 * m + 3 ∧ s.1.cols = 2 * n + 3 ∧ s.2.rows = 2 * m + 3 ∧ s.2.cols = 2 * n + 3)
    owner (fun r c => Spec.at (aXG, aYG) ((r - 1) / 2) ((c - 1) / 2))
    (Mat.full (2 * m + 3) (2 * n + 3) Arith.zero, Mat.full (2 * m + 3) (2 * n + 3) Arith.zero) ⟨rfl, rfl, rfl, rfl⟩
    (by
      intro s i j hi hj hg _
      obtain ⟨g1, g2, g3, g4⟩ := hg
      have st : ∀ (m : Mat F) (r c : Nat) (x : F), r < m.rows → c < m.cols → m.setAt r c x = .ok (m.set r c x) := by
        intro m r c x h1 h2; unfold Mat.setAt; rw [if_pos ⟨h1, h2⟩]
      refine ⟨(s.1.set (1 + 2 * i) (1 + 2 * j) (aXG.get i j), s.2.set (1 + 2 * i) (1 + 2 * j) (aYG.get i j)), ?_,
        ⟨g1, g2, g3, g4⟩, ?_⟩
      · rw [Mat.at'_ok _ _ _ (by omega) (by omega), Py.ok_bind, Mat.at'_ok _ _ _ (by omega) (by omega), Py.ok_bind,
          st _ _ _ _ (by omega) (by omega), Py.ok_bind, st _ _ _ _ (by omega) (by omega), Py.ok_bind]
        rfl
      · intro r c
        by_cases ho : owner r c = some (i, j)
        · rw [if_pos ho]
          obtain ⟨rfl, rfl⟩ := (own _ _ _ _).1 ho
          have a : (1 + 2 * i - 1) / 2 = i := by omega
          have b : (1 + 2 * j - 1) / 2 = j := by omega
          rw [a, b]
          unfold Spec.at Mat.set
          simp
        · rw [if_neg ho]
          rw [own] at ho
          unfold Spec.at Mat.set
          dsimp only
          rw [if_neg ho, if_neg ho])
  refine ⟨s, e, g, fun i j hi hj => ?_, fun r c => ?_⟩
  · rw [v, (own _ _ i j).2 ⟨rfl, rfl⟩]
    have a : (1 + 2 * i - 1) / 2 = i := by omega
    have b : (1 + 2 * j - 1) / 2 = j := by omega
    dsimp only
    rw [if_pos (by omega), a, b]
  · rw [v]
    cases ho : owner r c with
    | none => right; rfl
    | some ij =>
      obtain ⟨i, j⟩ := ij
      obtain ⟨h1, h2⟩ := (own _ _ _ _).1 ho
      dsimp only
      split
      · left; exact ⟨i, j, by omega, by omega, h1, h2⟩
      · right; rfl

/-- The filled compute grid agrees, inside the ring, with the tile made of A's corner points. -/
theorem fill_halfTile (geod : Geod F) (aXG aYG x0 y0 : Mat F) (m n : Nat) (hm : 0 < m) (hn : 0 < n)
    (h1 : x0.rows = 2 * m + 3) (h2 : x0.cols = 2 * n + 3) (h3 : y0.rows = 2 * m + 3) (h4 : y0.cols = 2 * n + 3)
    (hv : ∀ i j, i ≤ m → j ≤ n → Spec.at (x0, y0) (1 + 2 * i) (1 + 2 * j) = Spec.at (aXG, aYG) i j) :
    ∃ s, fill geod x0 y0 1 (1 + 2 * m) 1 (1 + 2 * n) 1 1 = .ok s ∧ Spec.Ringed s.1 s.2 m n ∧
      TileAgree (tileOf s.1 s.2 m n) (Spec.halfTile geod (wraps x0) aXG aYG m n) := by
  obtain ⟨s, e, s1, s2, s3, s4, v⟩ := fill_spec geod x0 y0 1 1 m n 1 1 (by omega) (by omega) hm hn (by omega) (by omega)
    (by omega) (by omega)
  have em : 1 + m * (2 * 1) = 1 + 2 * m := by omega
  have en : 1 + n * (2 * 1) = 1 + 2 * n := by omega
  rw [em, en] at e v
  refine ⟨s, e, ⟨by omega, by omega, by omega, by omega⟩, rfl, rfl, ?_⟩
  intro a b ha ha' hb hb'
  obtain ⟨a, rfl⟩ : ∃ k : Nat, a = k := ⟨a.toNat, by omega⟩
  obtain ⟨b, rfl⟩ : ∃ k : Nat, b = k := ⟨b.toNat, by omega⟩
  change (a : Int) ≤ 2 * (m : Int) at ha'
  change (b : Int) ≤ 2 * (n : Int) at hb'
  show pt s ((a : Int) + 1).toNat ((b : Int) + 1).toNat = Spec.halfPt geod (wraps x0) aXG aYG (a : Int).toNat (b : Int).toNat
  have ta : ((a : Int) + 1).toNat = a + 1 := by omega
  have tb : ((b : Int) + 1).toNat = b + 1 := by omega
  have ta' : (a : Int).toNat = a := by omega
  have tb' : (b : Int).toNat = b := by omega
  rw [ta, tb, ta', tb', v]
  -- a grid line
  have line : ∀ j, j ≤ n → fill1 geod (wraps x0) (x0, y0) 1 (1 + 2 * m) 1 (1 + 2 * n) (2 * 1) (2 * 1) (a + 1) (1 + 2 * j) =
      if a % 2 = 0 then Spec.at (aXG, aYG) (a / 2) j
      else Spec.mid geod (wraps x0) (Spec.at (aXG, aYG) (a / 2) j) (Spec.at (aXG, aYG) (a / 2 + 1) j) := by
    intro j hj
    unfold fill1
    by_cases hA : a % 2 = 0
    · rw [if_neg (by omega), if_pos hA]
      have : a + 1 = 1 + 2 * (a / 2) := by omega
      rw [this]
      exact hv (a / 2) j (by omega) hj
    · rw [if_pos (by omega), if_neg hA]
      have e1 : (a + 1 - 1) % (2 * 1) - 1 = 0 := by omega
      have e2 : 1 + (a + 1 - 1) / (2 * 1) * (2 * 1) = 1 + 2 * (a / 2) := by omega
      have e3 : 1 + ((a + 1 - 1) / (2 * 1) + 1) * (2 * 1) = 1 + 2 * (a / 2 + 1) := by omega
      rw [e1, e2, e3, show 2 * 1 - 1 = 1 from rfl, sub_eq_mid]
      have k1 := hv (a / 2) j (by omega) hj
      have k2 := hv (a / 2 + 1) j (by omega) hj
      change pt (x0, y0) _ _ = _ at k1
      change pt (x0, y0) _ _ = _ at k2
      rw [k1, k2]
  unfold fill2 Spec.halfPt
  dsimp only
  by_cases hB : b % 2 = 0
  · rw [if_neg (by omega), if_pos hB]
    have : b + 1 = 1 + 2 * (b / 2) := by omega
    rw [this]
    exact line (b / 2) (by omega)
  · rw [if_pos (by omega), if_neg hB]
    have e1 : (b + 1 - 1) % (2 * 1) - 1 = 0 := by omega
    have e2 : 1 + (b + 1 - 1) / (2 * 1) * (2 * 1) = 1 + 2 * (b / 2) := by omega
    have e3 : 1 + ((b + 1 - 1) / (2 * 1) + 1) * (2 * 1) = 1 + 2 * (b / 2 + 1) := by omega
    rw [e1, e2, e3, show 2 * 1 - 1 = 1 from rfl, sub_eq_mid, line (b / 2) (by omega), line (b / 2 + 1) (by omega)]

/-- `fill` rejects an empty window. -/
theorem fill_empty (geod : Geod F) (x y : Mat F) (m n : Nat) (h : m = 0 ∨ n = 0) :
    ∃ e, fill geod x y 1 (1 + 2 * m) 1 (1 + 2 * n) 1 1 = .error e := by
  unfold fill
  rw [if_neg (by omega)]
  rcases h with rfl | rfl
  · have : sliceLen 1 (min (1 + 2 * 0) x.rows) (2 * 1) = 0 := by unfold sliceLen; omega
    rw [this]
    exact ⟨_, rfl⟩
  · dsimp only
    split
    · exact ⟨_, rfl⟩
    · have : sliceLen 1 (min (1 + 2 * 0) x.cols) (2 * 1) = 0 := by unfold sliceLen; omega
      rw [this]
      cases (forIJ (List.range (sliceLen 1 (min (1 + 2 * m) x.rows) (2 * 1)))
        (List.range (sliceLen 1 (min (1 + 2 * 0 + 1) x.cols) (2 * 1)))
        (fun s i j => fillX geod (!x.toList.any fun x => PyFloat.lt x Arith.zero) 1 s
          (1 + i * 2 * 1) (1 + (i + 1) * 2 * 1) (1 + j * 2 * 1)) (x, y)) with
      | error e => exact ⟨e, rfl⟩
      | ok s1 =>
        rw [Py.ok_bind, if_pos (Or.inr rfl)]
        exact ⟨_, rfl⟩

/-- What `refringe` does. -/
theorem refringe_spec [ZeroLaw F] (geod : Geod F) (aXG aYG : Mat F) (m n : Nat) (M : Matched F) (e : Edge)
    (hj : M.join = joinSlice e)
    (h1 : aXG.rows = m + 1) (h2 : aXG.cols = n + 1) (h3 : aYG.rows = m + 1) (h4 : aYG.cols = n + 1) :
    (∀ new, refringe geod aXG aYG M = .ok new → 0 < m ∧ 0 < n ∧
      (M.edgeXg.len = match e with | .E | .W => 2 * n + 1 | .N | .S => 2 * m + 1) ∧
      ∃ wrap : Bool, (wrap = true ↔ Spec.NonNeg aXG ∧ (∀ k, k < M.edgeXg.len → PyFloat.lt (M.edgeXg.get k) Arith.zero = false) ∧
        PyFloat.lt (Arith.zero : F) Arith.zero = false) ∧ Spec.Complete new m n ∧
      ∀ f, ∃ N, new f = .arr N ∧ ∀ i j, i < Spec.nrows f m → j < Spec.ncols f n →
        N.get i j = (Spec.halfTile geod wrap aXG aYG m n).entry geod.inv
          (Spec.quad geod ((Spec.halfTile geod wrap aXG aYG m n).usePlanar geod.inv)) f i j) ∧
    (0 < m → 0 < n →
      (M.edgeXg.len = match e with | .E | .W => 2 * n + 1 | .N | .S => 2 * m + 1) →
      (M.edgeYg.len = match e with | .E | .W => 2 * n + 1 | .N | .S => 2 * m + 1) →
      ∃ new, refringe geod aXG aYG M = .ok new) := by
  obtain ⟨s0, e0, ⟨a1, a2, a3, a4⟩, v0, z0⟩ := copyCorners aXG aYG m n h1 h2 h3 h4
  have d1 : m + 1 - 1 = m := by omega
  have d2 : n + 1 - 1 = n := by omega
  have f1 : 1 + 2 * m + 1 + 1 = 2 * m + 3 := by omega
  have f2 : 1 + 2 * n + 1 + 1 = 2 * n + 3 := by omega
  have hre : refringe geod aXG aYG M = (do
      let xg ← s0.1.setInner (joinSlice e) M.edgeXg
      let yg ← s0.2.setInner (joinSlice e) M.edgeYg
      let s ← fill geod xg yg 1 (1 + 2 * m) 1 (1 + 2 * n) 1 1
      tomitgridRing geod s.1 s.2 m n) := by
    unfold refringe tomitgridRing
    rw [hj]
    dsimp only
    rw [h1, h2, d1, d2, f1, f2, e0, Py.ok_bind]
  -- after the edge has been put into the ring
  have core : ∀ x0 y0, s0.1.setInner (joinSlice e) M.edgeXg = .ok x0 → s0.2.setInner (joinSlice e) M.edgeYg = .ok y0 →
      0 < m → 0 < n → ∃ new wrap, refringe geod aXG aYG M = .ok new ∧ (wrap = true ↔ Spec.NonNeg aXG ∧
        (∀ k, k < M.edgeXg.len → PyFloat.lt (M.edgeXg.get k) Arith.zero = false) ∧ PyFloat.lt (Arith.zero : F) Arith.zero = false) ∧
      Spec.Complete new m n ∧
      ∀ f, ∃ N, new f = .arr N ∧ ∀ i j, i < Spec.nrows f m → j < Spec.ncols f n →
        N.get i j = (Spec.halfTile geod wrap aXG aYG m n).entry geod.inv
          (Spec.quad geod ((Spec.halfTile geod wrap aXG aYG m n).usePlanar geod.inv)) f i j := by
    intro x0 y0 hx hy hm hn
    obtain ⟨x1, x2, x3⟩ := setInner_ok _ _ _ _ hx
    obtain ⟨y1, y2, y3⟩ := setInner_ok _ _ _ _ hy
    have hv : ∀ i j, i ≤ m → j ≤ n → Spec.at (x0, y0) (1 + 2 * i) (1 + 2 * j) = Spec.at (aXG, aYG) i j := by
      intro i j hi hj
      rw [← v0 i j hi hj]
      unfold Spec.at
      dsimp only
      rw [x3 _ _ (by omega) (by omega) (by omega) (by omega), y3 _ _ (by omega) (by omega) (by omega) (by omega)]
    obtain ⟨s, hf, hring, hagree⟩ := fill_halfTile geod aXG aYG x0 y0 m n hm hn (by omega) (by omega) (by omega)
      (by omega) hv
    obtain ⟨g, hg, vg⟩ := tomitgrid_spec geod s.1 s.2 m n hring.1 hring.2 hring.3 hring.4
    refine ⟨g, wraps x0, ?_, ?_, ?_, ?_⟩
    · rw [hre, hx, Py.ok_bind, hy, Py.ok_bind, hf, Py.ok_bind]
      exact hg
    · have zr : ∀ r c, r < s0.1.rows → c < s0.1.cols → r = 0 ∨ r + 1 = s0.1.rows ∨ c = 0 ∨ c + 1 = s0.1.cols → s0.1.get r c = Arith.zero := by
        intro r c _ _ hb
        rcases z0 r c with ⟨i, j, hi, hj, rfl, rfl⟩ | h0
        · omega
        · exact congrArg Prod.fst h0
      have al := setInner_all (fun x => PyFloat.lt x Arith.zero = false) Arith.zero s0.1 x0 e M.edgeXg (by omega) (by omega) zr hx
      rw [wraps_iff, show Spec.NonNeg x0 ↔ ∀ r c, r < s0.1.rows → c < s0.1.cols → PyFloat.lt (x0.get r c) Arith.zero = false by
        unfold Spec.NonNeg; rw [x1, x2], al]
      refine ⟨fun ⟨b1, b2, b3⟩ => ⟨fun r c hr hc => ?_, b2, b3⟩, fun ⟨b1, b2, b3⟩ => ⟨fun r c _ hr _ hc => ?_, b2, b3⟩⟩
      · have := b1 (1 + 2 * r) (1 + 2 * c) (by omega) (by omega) (by omega) (by omega)
        have e1 := congrArg Prod.fst (v0 r c (by omega) (by omega))
        change s0.1.get _ _ = aXG.get _ _ at e1
        rw [← e1]
        exact this
      · rcases z0 r c with ⟨i, j, hi, hj, rfl, rfl⟩ | h0
        · have e1 := congrArg Prod.fst (v0 i j (by omega) (by omega))
          change s0.1.get _ _ = aXG.get _ _ at e1
          rw [e1]
          exact b1 i j (by omega) (by omega)
        · have : s0.1.get r c = Arith.zero := congrArg Prod.fst h0
          rw [this]
          exact b3
    · intro f
      obtain ⟨N, b1, b2, b3, _⟩ := vg f
      exact ⟨N, b1, b2, b3⟩
    · intro f
      obtain ⟨N, b1, b2, b3, b4⟩ := vg f
      refine ⟨N, b1, fun i j hi hj => ?_⟩
      rw [b4 i j (by omega) (by omega), usePlanar_agree hagree]
      exact entry_agree hagree _ _ f i j hi hj
  constructor
  · intro new hnew
    cases hx : s0.1.setInner (joinSlice e) M.edgeXg with
    | error er => rw [hre, hx] at hnew; cases hnew
    | ok x0 =>
      cases hy : s0.2.setInner (joinSlice e) M.edgeYg with
      | error er => rw [hre, hx, Py.ok_bind, hy] at hnew; cases hnew
      | ok y0 =>
        have pos : 0 < m ∧ 0 < n := by
          by_cases hp : 0 < m ∧ 0 < n
          · exact hp
          · obtain ⟨er, he⟩ := fill_empty geod x0 y0 m n (by omega)
            rw [hre, hx, Py.ok_bind, hy, Py.ok_bind, he] at hnew
            cases hnew
        have hl := setInner_len _ _ _ _ hx
        obtain ⟨new', wrap, c1, c2, c3, c4⟩ := core x0 y0 hx hy pos.1 pos.2
        rw [hnew] at c1
        cases c1
        refine ⟨pos.1, pos.2, ?_, wrap, c2, c3, c4⟩
        rw [hl]
        cases e <;> dsimp only <;> omega
  · intro hm hn hlx hly
    obtain ⟨x0, hx⟩ := setInner_succeeds s0.1 e M.edgeXg (by omega) (by omega) (by
      rw [hlx]; cases e <;> dsimp only <;> omega)
    obtain ⟨y0, hy⟩ := setInner_succeeds s0.2 e M.edgeYg (by omega) (by omega) (by
      rw [hly]; cases e <;> dsimp only <;> omega)
    obtain ⟨new, _, c1, _⟩ := core x0 y0 hx hy hm hn
    exact ⟨new, c1⟩

/-! ### The merge -/

/-- The entry kept or replaced. -/
def mergedMat (A N : Mat F) : Mat F :=
  { N with get := fun i j => if PyFloat.isZero (A.get i j) then N.get i j else A.get i j }

theorem merge_loop (a : Grid F) (A : Field → Mat F) (ha : ∀ f, a f = .arr (A f)) (l : List Field) (hl : l.Nodup)
    (g : Grid F) (N : Field → Mat F) (hg : ∀ f, g f = .arr (N f))
    (hs : ∀ f, (A f).rows = (N f).rows ∧ (A f).cols = (N f).cols ∧ 0 < (N f).rows ∧ 0 < (N f).cols) :
    ∃ r, l.foldlM (fun (g : Grid F) f => do
        let o ← a.arr f
        let n ← g.arr f
        let r ← mergeField o n
        return g.put f r) g = .ok r ∧
      ∀ f, r f = if f ∈ l then .arr (mergedMat (A f) (N f)) else .arr (N f) := by
  induction l using snoc_ind with
  | nil => exact ⟨g, rfl, fun f => by rw [hg]; simp⟩
  | snoc l f0 ih =>
    have hd := List.nodup_append.1 hl
    obtain ⟨r, e, v⟩ := ih hd.1
    have hnf : f0 ∉ l := fun hm => hd.2.2 f0 hm f0 (by simp) rfl
    have ao : a.arr f0 = .ok (A f0) := by unfold Grid.arr; rw [ha]
    have ro : r.arr f0 = .ok (N f0) := by unfold Grid.arr; rw [v, if_neg hnf]
    rw [List.foldlM_append, e, Py.ok_bind, List.foldlM_cons, ao, Py.ok_bind, ro, Py.ok_bind]
    unfold mergeField
    rw [if_pos (hs f0), Py.ok_bind]
    refine ⟨_, rfl, fun f => ?_⟩
    show (if f = f0 then _ else r f) = _
    by_cases hff : f = f0
    · subst hff
      rw [if_pos rfl, if_pos (by simp)]
      rfl
    · rw [if_neg hff, v]
      have : (f ∈ l ++ [f0]) ↔ f ∈ l := by simp [hff]
      simp only [this]

end SG
