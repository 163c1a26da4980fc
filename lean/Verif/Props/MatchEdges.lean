import Verif.Lemmas.MatchEdges
/-! # C40–C42: `matchedges` -/

set_option linter.unusedSectionVars false

namespace SG
variable {F : Type} [PyFloat F]

/-! ## Specification -/

/-- A corner of a tile: (east?, north?). -/
abbrev Spec.Corner := Bool × Bool

/-- Longitude and latitude of a corner. -/
def Spec.cornerPt (xg yg : Mat F) (c : Spec.Corner) : F × F :=
  let i := if c.1 then xg.rows - 1 else 0
  let j := if c.2 then xg.cols - 1 else 0
  (xg.get i j, yg.get i j)

/-- Does the corner lie on the edge? -/
def Spec.onEdge : Edge → Spec.Corner → Bool
  | .W, c => !c.1
  | .E, c => c.1
  | .S, c => !c.2
  | .N, c => c.2

/-- Order of preference W, E, S, N. -/
def Spec.rank : Edge → Nat
  | .W => 0 | .E => 1 | .S => 2 | .N => 3

/-- All corners of the edge are near. -/
def Spec.EdgeNear (near : Spec.Corner → Prop) (e : Edge) : Prop := ∀ c, Spec.onEdge e c = true → near c

/-- `e` is the first edge with near corners. -/
def Spec.FirstEdge (near : Spec.Corner → Prop) (e : Edge) : Prop :=
  Spec.EdgeNear near e ∧ ∀ e', Spec.rank e' < Spec.rank e → ¬ Spec.EdgeNear near e'

def Spec.Opposite : Edge × Edge → Prop
  | (.N, .S) | (.S, .N) | (.E, .W) | (.W, .E) => True
  | _ => False

instance (p : Edge × Edge) : Decidable (Spec.Opposite p) := by
  obtain ⟨a, b⟩ := p
  cases a <;> cases b <;> first | exact isTrue trivial | exact isFalse id

/-- Arrays of one non-empty shape. -/
def Spec.Tile2 (xg yg : Mat F) : Prop :=
  yg.rows = xg.rows ∧ yg.cols = xg.cols ∧ 0 < xg.rows ∧ 0 < xg.cols

/-- Distance between corners of the two tiles. -/
def Spec.cdist (geod : Geod F) (p q : F × F) : F := geod.inv p.1 p.2 q.1 q.2

/-- The tolerance: a millionth of the mean length of the four diagonals. -/
def Spec.tolerance (geod : Geod F) (aXG aYG bXG bYG : Mat F) : F :=
  (Spec.cdist geod (Spec.cornerPt aXG aYG (false, false)) (Spec.cornerPt aXG aYG (true, true)) +ₚ
    Spec.cdist geod (Spec.cornerPt aXG aYG (true, false)) (Spec.cornerPt aXG aYG (false, true)) +ₚ
    Spec.cdist geod (Spec.cornerPt bXG bYG (false, false)) (Spec.cornerPt bXG bYG (true, true)) +ₚ
    Spec.cdist geod (Spec.cornerPt bXG bYG (true, false)) (Spec.cornerPt bXG bYG (false, true)))
    /ₚ PyFloat.four *ₚ PyFloat.tol

/-- Corner `c` of tile A is within the tolerance of some corner of tile B. -/
def Spec.NearA (geod : Geod F) (aXG aYG bXG bYG : Mat F) (c : Spec.Corner) : Prop :=
  ∃ c', PyFloat.le (Spec.cdist geod (Spec.cornerPt aXG aYG c) (Spec.cornerPt bXG bYG c'))
    (Spec.tolerance geod aXG aYG bXG bYG) = true

/-- Corner `c` of tile B is within the tolerance of some corner of tile A. -/
def Spec.NearB (geod : Geod F) (aXG aYG bXG bYG : Mat F) (c : Spec.Corner) : Prop :=
  ∃ c', PyFloat.le (Spec.cdist geod (Spec.cornerPt aXG aYG c') (Spec.cornerPt bXG bYG c))
    (Spec.tolerance geod aXG aYG bXG bYG) = true

/-! ## From the model to the specification -/

theorem atI_corner (m : Mat F) (hr : 0 < m.rows) (hc : 0 < m.cols) (c : Bool × Bool) :
    m.atI (cornerIdx c).1 (cornerIdx c).2 =
      .ok (m.get (if c.1 then m.rows - 1 else 0) (if c.2 then m.cols - 1 else 0)) := by
  have idx : ∀ (n : Nat) (b : Bool), 0 < n → pyIdx n (if b then -1 else 0) = some (if b then n - 1 else 0) := by
    intro n b hn
    unfold pyIdx
    cases b
    · rw [if_pos (by simp), if_pos (by simp; omega)]; rfl
    · rw [if_neg (by simp), if_pos (by simp; omega)]
      simp
      omega
  unfold Mat.atI cornerIdx
  dsimp only
  rw [idx _ _ hr, idx _ _ hc]

theorem cornerDist_ok (geod : Geod F) (aXG aYG bXG bYG : Mat F) (ha : Spec.Tile2 aXG aYG) (hb : Spec.Tile2 bXG bYG)
    (c c' : Bool × Bool) :
    cornerDist geod aXG aYG bXG bYG (cornerIdx c) (cornerIdx c') =
      .ok (Spec.cdist geod (Spec.cornerPt aXG aYG c) (Spec.cornerPt bXG bYG c')) := by
  obtain ⟨a1, a2, a3, a4⟩ := ha
  obtain ⟨b1, b2, b3, b4⟩ := hb
  unfold cornerDist
  rw [atI_corner aXG a3 a4, Py.ok_bind, atI_corner aYG (by omega) (by omega), Py.ok_bind,
    atI_corner bXG b3 b4, Py.ok_bind, atI_corner bYG (by omega) (by omega), Py.ok_bind, a1, a2, b1, b2]
  rfl

theorem detect_iff (m : Mat F) (t : F) (e : Edge) :
    detect m t = some e ↔ Spec.FirstEdge (fun c => PyFloat.le (m.cor c) t = true) e := by
  have near : ∀ e, Spec.EdgeNear (fun c => PyFloat.le (m.cor c) t = true) e ↔
      match e with
      | .W => PyFloat.le (m.get 0 0) t = true ∧ PyFloat.le (m.get 0 1) t = true
      | .E => PyFloat.le (m.get 1 0) t = true ∧ PyFloat.le (m.get 1 1) t = true
      | .S => PyFloat.le (m.get 0 0) t = true ∧ PyFloat.le (m.get 1 0) t = true
      | .N => PyFloat.le (m.get 0 1) t = true ∧ PyFloat.le (m.get 1 1) t = true := by
    intro e
    unfold Spec.EdgeNear
    cases e
    · exact ⟨fun h => ⟨h (false, true) rfl, h (true, true) rfl⟩, by
        rintro ⟨h1, h2⟩ ⟨a, b⟩ hb
        cases a <;> cases b <;> first | exact h1 | exact h2 | cases hb⟩
    · exact ⟨fun h => ⟨h (false, false) rfl, h (true, false) rfl⟩, by
        rintro ⟨h1, h2⟩ ⟨a, b⟩ hb
        cases a <;> cases b <;> first | exact h1 | exact h2 | cases hb⟩
    · exact ⟨fun h => ⟨h (true, false) rfl, h (true, true) rfl⟩, by
        rintro ⟨h1, h2⟩ ⟨a, b⟩ hb
        cases a <;> cases b <;> first | exact h1 | exact h2 | cases hb⟩
    · exact ⟨fun h => ⟨h (false, false) rfl, h (false, true) rfl⟩, by
        rintro ⟨h1, h2⟩ ⟨a, b⟩ hb
        cases a <;> cases b <;> first | exact h1 | exact h2 | cases hb⟩
  have first : Spec.FirstEdge (fun c => PyFloat.le (m.cor c) t = true) e ↔
      match e with
      | .W => Spec.EdgeNear (fun c => PyFloat.le (m.cor c) t = true) .W
      | .E => Spec.EdgeNear (fun c => PyFloat.le (m.cor c) t = true) .E ∧
          ¬ Spec.EdgeNear (fun c => PyFloat.le (m.cor c) t = true) .W
      | .S => Spec.EdgeNear (fun c => PyFloat.le (m.cor c) t = true) .S ∧
          ¬ Spec.EdgeNear (fun c => PyFloat.le (m.cor c) t = true) .W ∧
          ¬ Spec.EdgeNear (fun c => PyFloat.le (m.cor c) t = true) .E
      | .N => Spec.EdgeNear (fun c => PyFloat.le (m.cor c) t = true) .N ∧
          ¬ Spec.EdgeNear (fun c => PyFloat.le (m.cor c) t = true) .W ∧
          ¬ Spec.EdgeNear (fun c => PyFloat.le (m.cor c) t = true) .E ∧
          ¬ Spec.EdgeNear (fun c => PyFloat.le (m.cor c) t = true) .S := by
    unfold Spec.FirstEdge
    cases e
    · exact ⟨fun ⟨h, r⟩ => ⟨h, r .W (by decide), r .E (by decide), r .S (by decide)⟩, fun ⟨h, r1, r2, r3⟩ => ⟨h, by
        intro e' he; cases e'
        · exact absurd he (by decide)
        · exact r3
        · exact r2
        · exact r1⟩⟩
    · exact ⟨fun ⟨h, r⟩ => ⟨h, r .W (by decide), r .E (by decide)⟩, fun ⟨h, r1, r2⟩ => ⟨h, by
        intro e' he; cases e'
        · exact absurd he (by decide)
        · exact absurd he (by decide)
        · exact r2
        · exact r1⟩⟩
    · exact ⟨fun ⟨h, r⟩ => ⟨h, r .W (by decide)⟩, fun ⟨h, r1⟩ => ⟨h, by
        intro e' he; cases e'
        · exact absurd he (by decide)
        · exact absurd he (by decide)
        · exact absurd he (by decide)
        · exact r1⟩⟩
    · exact ⟨fun ⟨h, _⟩ => h, fun h => ⟨h, by
        intro e' he; cases e' <;> exact absurd he (by decide)⟩⟩
  rw [first, near, near, near, near]
  unfold detect
  cases PyFloat.le (m.get 0 0) t <;> cases PyFloat.le (m.get 0 1) t <;> cases PyFloat.le (m.get 1 0) t <;>
    cases PyFloat.le (m.get 1 1) t <;> cases e <;> simp

theorem opposite_iff (ae be : Edge) :
    (ae.code + be.code ≠ Edge.N.code + Edge.S.code ∧ ae.code + be.code ≠ Edge.E.code + Edge.W.code) ↔
      ¬ Spec.Opposite (ae, be) := by
  cases ae <;> cases be <;> simp [Edge.code, Spec.Opposite]

theorem EdgeNear_congr {p q : Spec.Corner → Prop} (h : ∀ c, p c ↔ q c) (e : Edge) :
    Spec.EdgeNear p e ↔ Spec.EdgeNear q e :=
  ⟨fun hp c hc => (h c).1 (hp c hc), fun hq c hc => (h c).2 (hq c hc)⟩

theorem FirstEdge_congr {p q : Spec.Corner → Prop} (h : ∀ c, p c ↔ q c) (e : Edge) :
    Spec.FirstEdge p e ↔ Spec.FirstEdge q e := by
  unfold Spec.FirstEdge
  rw [EdgeNear_congr h]
  exact ⟨fun ⟨a, b⟩ => ⟨a, fun e' he hn => b e' he ((EdgeNear_congr h e').2 hn)⟩,
    fun ⟨a, b⟩ => ⟨a, fun e' he hn => b e' he ((EdgeNear_congr h e').1 hn)⟩⟩

theorem FirstEdge_exists (p : Spec.Corner → Prop) : (∃ e, Spec.EdgeNear p e) ↔ ∃ e, Spec.FirstEdge p e := by
  constructor
  · rintro ⟨e, he⟩
    by_cases w : Spec.EdgeNear p .W
    · exact ⟨.W, w, fun e' h => by cases e' <;> exact absurd h (by decide)⟩
    · by_cases ee : Spec.EdgeNear p .E
      · refine ⟨.E, ee, fun e' h => ?_⟩
        cases e' <;> first | exact absurd h (by decide) | exact w
      · by_cases s : Spec.EdgeNear p .S
        · refine ⟨.S, s, fun e' h => ?_⟩
          cases e' <;> first | exact absurd h (by decide) | exact w | exact ee
        · refine ⟨.N, ?_, fun e' h => ?_⟩
          · cases e
            · exact he
            · exact absurd he s
            · exact absurd he ee
            · exact absurd he w
          · cases e' <;> first | exact absurd h (by decide) | exact w | exact ee | exact s
  · rintro ⟨e, he, _⟩; exact ⟨e, he⟩

/-- `matchedges` in terms of the specification. -/
theorem matchedges_spec [FloatTotal F] (geod : Geod F) (aXG aYG bXG bYG : Mat F)
    (ha : Spec.Tile2 aXG aYG) (hb : Spec.Tile2 bXG bYG)
    (hfin : PyFloat.le PyFloat.inf (Spec.tolerance geod aXG aYG bXG bYG) = false) :
    (∃ ae be, Spec.FirstEdge (Spec.NearA geod aXG aYG bXG bYG) ae ∧
      Spec.FirstEdge (Spec.NearB geod aXG aYG bXG bYG) be ∧ Spec.Opposite (ae, be) ∧
      matchedges geod aXG aYG bXG bYG = (do
        let xy ← edgeLine geod aXG aYG bXG bYG ae be
        return ⟨ae, edgeSlice ae, be, edgeSlice be, xy.1, xy.2, joinSlice ae⟩)) ∨
    ((∀ ae be, Spec.FirstEdge (Spec.NearA geod aXG aYG bXG bYG) ae →
      Spec.FirstEdge (Spec.NearB geod aXG aYG bXG bYG) be → ¬ Spec.Opposite (ae, be)) ∧
      matchedges geod aXG aYG bXG bYG = .error .valueError) := by
  obtain ⟨ab, hab, ab1, ab2, vab⟩ := minDists_spec (fun ca cb => cornerDist geod aXG aYG bXG bYG ca cb)
    (fun c c' => Spec.cdist geod (Spec.cornerPt aXG aYG c) (Spec.cornerPt bXG bYG c'))
    (fun c c' => cornerDist_ok geod _ _ _ _ ha hb c c')
  obtain ⟨ba, hba, ba1, ba2, vba⟩ := minDists_spec (fun cb ca => cornerDist geod aXG aYG bXG bYG ca cb)
    (fun c c' => Spec.cdist geod (Spec.cornerPt aXG aYG c') (Spec.cornerPt bXG bYG c))
    (fun c c' => cornerDist_ok geod _ _ _ _ ha hb c' c)
  have e1 := cornerDist_ok geod aXG aYG aXG aYG ha ha (false, false) (true, true)
  have e2 := cornerDist_ok geod aXG aYG aXG aYG ha ha (true, false) (false, true)
  have e3 := cornerDist_ok geod bXG bYG bXG bYG hb hb (false, false) (true, true)
  have e4 := cornerDist_ok geod bXG bYG bXG bYG hb hb (true, false) (false, true)
  have mem4 : ∀ (f : Spec.Corner → F) (P : F → Prop),
      (∃ x ∈ [f (false, false), f (true, false), f (true, true), f (false, true)], P x) ↔ ∃ c, P (f c) := by
    intro f P
    constructor
    · rintro ⟨x, hx, hp⟩
      simp only [List.mem_cons, List.not_mem_nil, or_false] at hx
      rcases hx with rfl | rfl | rfl | rfl <;> exact ⟨_, hp⟩
    · rintro ⟨⟨a, b⟩, hp⟩
      exact ⟨_, by cases a <;> cases b <;> simp, hp⟩
  have na : ∀ c, PyFloat.le (ab.cor c) (Spec.tolerance geod aXG aYG bXG bYG) = true ↔
      Spec.NearA geod aXG aYG bXG bYG c := by
    intro c
    rw [vab, minFold_le_iff _ _ hfin]
    exact mem4 (fun c' => Spec.cdist geod (Spec.cornerPt aXG aYG c) (Spec.cornerPt bXG bYG c')) _
  have nb : ∀ c, PyFloat.le (ba.cor c) (Spec.tolerance geod aXG aYG bXG bYG) = true ↔
      Spec.NearB geod aXG aYG bXG bYG c := by
    intro c
    rw [vba, minFold_le_iff _ _ hfin]
    exact mem4 (fun c' => Spec.cdist geod (Spec.cornerPt aXG aYG c') (Spec.cornerPt bXG bYG c)) _
  have fa : ∀ e, detect ab (Spec.tolerance geod aXG aYG bXG bYG) = some e ↔
      Spec.FirstEdge (Spec.NearA geod aXG aYG bXG bYG) e := fun e => (detect_iff _ _ _).trans (FirstEdge_congr na e)
  have fb : ∀ e, detect ba (Spec.tolerance geod aXG aYG bXG bYG) = some e ↔
      Spec.FirstEdge (Spec.NearB geod aXG aYG bXG bYG) e := fun e => (detect_iff _ _ _).trans (FirstEdge_congr nb e)
  have hm : matchedges geod aXG aYG bXG bYG =
      (if PyFloat.lt (Spec.tolerance geod aXG aYG bXG bYG) (amin [amin ab.toList, amin ba.toList]) then
        .error .valueError
      else match detect ab (Spec.tolerance geod aXG aYG bXG bYG) with
        | none => .error .valueError
        | some ae => match detect ba (Spec.tolerance geod aXG aYG bXG bYG) with
          | none => .error .valueError
          | some be =>
            if ¬ Spec.Opposite (ae, be) then .error .valueError
            else do
              let xy ← edgeLine geod aXG aYG bXG bYG ae be
              return ⟨ae, edgeSlice ae, be, edgeSlice be, xy.1, xy.2, joinSlice ae⟩) := by
    unfold matchedges
    rw [show ((0 : Int), (0 : Int)) = cornerIdx (false, false) from rfl,
      show ((-1 : Int), (-1 : Int)) = cornerIdx (true, true) from rfl,
      show ((-1 : Int), (0 : Int)) = cornerIdx (true, false) from rfl,
      show ((0 : Int), (-1 : Int)) = cornerIdx (false, true) from rfl,
      e1, Py.ok_bind, e2, Py.ok_bind, e3, Py.ok_bind, e4, Py.ok_bind, hab, Py.ok_bind, hba, Py.ok_bind]
    dsimp only
    change (if PyFloat.lt (Spec.tolerance geod aXG aYG bXG bYG) _ = true then _ else _) = _
    split
    · rfl
    · change (match detect ab (Spec.tolerance geod aXG aYG bXG bYG) with
        | none => _
        | some ae => _) = _
      cases detect ab (Spec.tolerance geod aXG aYG bXG bYG) with
      | none => rfl
      | some ae =>
        dsimp only
        change (match detect ba (Spec.tolerance geod aXG aYG bXG bYG) with
          | none => _
          | some be => _) = _
        cases detect ba (Spec.tolerance geod aXG aYG bXG bYG) with
        | none => rfl
        | some be =>
          dsimp only
          by_cases ho : Spec.Opposite (ae, be)
          · rw [if_neg (fun h => (opposite_iff ae be).1 h ho), if_neg (fun h => h ho)]
          · rw [if_pos ((opposite_iff ae be).2 ho), if_pos ho]
            rfl
  by_cases hx : ∃ ae be, Spec.FirstEdge (Spec.NearA geod aXG aYG bXG bYG) ae ∧
      Spec.FirstEdge (Spec.NearB geod aXG aYG bXG bYG) be ∧ Spec.Opposite (ae, be)
  · left
    obtain ⟨ae, be, h1, h2, h3⟩ := hx
    refine ⟨ae, be, h1, h2, h3, ?_⟩
    have hlt : PyFloat.lt (Spec.tolerance geod aXG aYG bXG bYG) (amin [amin ab.toList, amin ba.toList]) = false := by
      have : ∃ c, Spec.onEdge ae c = true := by cases ae <;> first | exact ⟨(true, true), rfl⟩ | exact ⟨(false, false), rfl⟩
      obtain ⟨c, hc⟩ := this
      exact amin_ok _ _ _ _ hfin (toList_two ab ab1 ab2 c) ((na c).2 (h1.1 c hc))
    rw [hm, hlt, (fa ae).2 h1, (fb be).2 h2]
    show (if ¬ Spec.Opposite (ae, be) then _ else _) = _
    rw [if_neg (not_not_intro h3)]
  · right
    refine ⟨fun ae be h1 h2 h3 => hx ⟨ae, be, h1, h2, h3⟩, ?_⟩
    rw [hm]
    split
    · rfl
    · cases ha' : detect ab (Spec.tolerance geod aXG aYG bXG bYG) with
      | none => rfl
      | some ae =>
        cases hb' : detect ba (Spec.tolerance geod aXG aYG bXG bYG) with
        | none => rfl
        | some be => exact if_pos (fun h3 => hx ⟨ae, be, (fa ae).1 ha', (fb be).1 hb', h3⟩)

/-! ## The interpolated edge -/

/-- The `i`-th point of an edge. -/
def Spec.edgePt (xg yg : Mat F) (e : Edge) (i : Nat) : F × F :=
  match e with
  | .W => Spec.at (xg, yg) 0 i
  | .E => Spec.at (xg, yg) (xg.rows - 1) i
  | .S => Spec.at (xg, yg) i 0
  | .N => Spec.at (xg, yg) i (xg.cols - 1)

/-- The `i`-th point of the line next to an edge. -/
def Spec.nextPt (xg yg : Mat F) (e : Edge) (i : Nat) : F × F :=
  match e with
  | .W => Spec.at (xg, yg) 1 i
  | .E => Spec.at (xg, yg) (xg.rows - 2) i
  | .S => Spec.at (xg, yg) i 1
  | .N => Spec.at (xg, yg) i (xg.cols - 2)

/-- Number of points along an edge, and of lines parallel to it. -/
def Spec.along (m : Mat F) : Edge → Nat
  | .W | .E => m.cols
  | .S | .N => m.rows
def Spec.across (m : Mat F) : Edge → Nat
  | .W | .E => m.rows
  | .S | .N => m.cols

/-- `r` is the midpoint of the great circle arc from `p` to `q`, its longitude shifted by 360 if negative and
`nn` (no input longitude is negative). -/
def Spec.Mid (geod : Geod F) (nn : Prop) (p q r : F × F) : Prop :=
  (nn → r.1 = if PyFloat.lt (geod.npt p.1 p.2 q.1 q.2 1 0).1 Arith.zero
    then (geod.npt p.1 p.2 q.1 q.2 1 0).1 +ₚ PyFloat.c360 else (geod.npt p.1 p.2 q.1 q.2 1 0).1) ∧
  (¬ nn → r.1 = (geod.npt p.1 p.2 q.1 q.2 1 0).1) ∧ r.2 = (geod.npt p.1 p.2 q.1 q.2 1 0).2

theorem Mid_of_IsSub (geod : Geod F) (xg : Mat F) (nn : Prop) (h : Spec.NonNeg xg ↔ nn) (p q r : F × F)
    (hs : Spec.IsSub geod xg 1 0 p q r) : Spec.Mid geod nn p q r :=
  ⟨fun hn => hs.1.1 (h.2 hn), fun hn => hs.1.2 (fun hh => hn (h.1 hh)), hs.2⟩

/-- The tiles fit together: A's edge has at least two points, B's edge at least as many, and B has at least two
lines parallel to it. -/
structure Spec.Fits (aXG bXG : Mat F) (ae be : Edge) : Prop where
  two : 2 ≤ Spec.along aXG ae
  le : Spec.along aXG ae ≤ Spec.along bXG be
  deep : 2 ≤ Spec.across bXG be

theorem sel_edge (m m' : Mat F) (hr : m'.rows = m.rows) (hc : m'.cols = m.cols)
    (h1 : 0 < m.rows) (h2 : 0 < m.cols) (e : Edge) :
    m.sel (edgeSlice e) = .ok ⟨Spec.along m e, fun i => (Spec.edgePt m m' e i).1⟩ ∧
    m'.sel (edgeSlice e) = .ok ⟨Spec.along m e, fun i => (Spec.edgePt m m' e i).2⟩ := by
  have z : ∀ n : Nat, 0 < n → pyIdx n 0 = some 0 := by
    intro n hn; unfold pyIdx; rw [if_pos (by omega), if_pos (by omega)]; rfl
  have l : ∀ n : Nat, 0 < n → pyIdx n (-1) = some (n - 1) := by
    intro n hn; unfold pyIdx; rw [if_neg (by omega), if_pos (by omega)]; congr 1; omega
  cases e <;> simp only [edgeSlice, Mat.sel, hr, hc, z _ h1, z _ h2, l _ h1, l _ h2] <;> exact ⟨rfl, rfl⟩

theorem sel_next (m m' : Mat F) (hr : m'.rows = m.rows) (hc : m'.cols = m.cols) (e : Edge)
    (h : 2 ≤ Spec.across m e) :
    m.sel (edgeNextSlice e) = .ok ⟨Spec.along m e, fun i => (Spec.nextPt m m' e i).1⟩ ∧
    m'.sel (edgeNextSlice e) = .ok ⟨Spec.along m e, fun i => (Spec.nextPt m m' e i).2⟩ := by
  have z : ∀ n : Nat, 2 ≤ n → pyIdx n 1 = some 1 := by
    intro n hn; unfold pyIdx; rw [if_pos (by omega), if_pos (by omega)]; rfl
  have l : ∀ n : Nat, 2 ≤ n → pyIdx n (-2) = some (n - 2) := by
    intro n hn; unfold pyIdx; rw [if_neg (by omega), if_pos (by omega)]; congr 1; omega
  cases e <;> simp only [Spec.across] at h <;>
    simp only [edgeNextSlice, Mat.sel, hr, hc, z _ h, l _ h] <;> exact ⟨rfl, rfl⟩

/-- The loop that copies the two lines. -/
theorem edgeFold (aXG aYG bXG bYG : Mat F) (sa sb : Slice) (pa pb : Nat → Nat × Nat) (ax ay bx bY : Vec F) (n : Nat)
    (hax : aXG.sel sa = .ok ax) (hay : aYG.sel sa = .ok ay) (hbx : bXG.sel sb = .ok bx) (hby : bYG.sel sb = .ok bY)
    (lax : n ≤ ax.len) (lay : n ≤ ay.len) (lbx : n ≤ bx.len) (lby : n ≤ bY.len)
    (z z' : Mat F) (hr : z'.rows = z.rows) (hc : z'.cols = z.cols)
    (ina : ∀ i, i < n → (pa i).1 < z.rows ∧ (pa i).2 < z.cols)
    (inb : ∀ i, i < n → (pb i).1 < z.rows ∧ (pb i).2 < z.cols)
    (ia : ∀ i j, pa i = pa j → i = j) (ib : ∀ i j, pb i = pb j → i = j) (dis : ∀ i j, pa i ≠ pb j)
    (k : Nat) (hk : k ≤ n) :
    ∃ s, (List.range k).foldlM (edgeStep aXG aYG bXG bYG sa sb pa pb) (z, z') = .ok s ∧
      (s.1.rows = z.rows ∧ s.1.cols = z.cols ∧ s.2.rows = z.rows ∧ s.2.cols = z.cols) ∧
      (∀ i, i < k → Spec.at s (pa i).1 (pa i).2 = (ax.get i, ay.get i) ∧
        Spec.at s (pb i).1 (pb i).2 = (bx.get i, bY.get i)) ∧
      ∀ r c, (∀ i, i < k → (r, c) ≠ pa i ∧ (r, c) ≠ pb i) → Spec.at s r c = Spec.at (z, z') r c := by
  induction k with
  | zero => exact ⟨(z, z'), rfl, ⟨rfl, rfl, hr, hc⟩, fun i hi => absurd hi (by omega), fun _ _ _ => rfl⟩
  | succ k ih =>
    obtain ⟨s, e, ⟨s1, s2, s3, s4⟩, v, w⟩ := ih (by omega)
    have hk' : k < n := by omega
    obtain ⟨i1, i2⟩ := ina k hk'
    obtain ⟨j1, j2⟩ := inb k hk'
    have at' : ∀ (u : Vec F), n ≤ u.len → u.at' k = .ok (u.get k) := by
      intro u hu; unfold Vec.at'; rw [if_pos (by omega)]
    have st : ∀ (m : Mat F) (r c : Nat) (x : F), r < m.rows → c < m.cols → m.setAt r c x = .ok (m.set r c x) := by
      intro m r c x h1 h2; unfold Mat.setAt; rw [if_pos ⟨h1, h2⟩]
    rw [List.range_succ, List.foldlM_append, e, Py.ok_bind, List.foldlM_cons]
    have step : edgeStep aXG aYG bXG bYG sa sb pa pb s k =
        .ok ((s.1.set (pa k).1 (pa k).2 (ax.get k)).set (pb k).1 (pb k).2 (bx.get k),
          (s.2.set (pa k).1 (pa k).2 (ay.get k)).set (pb k).1 (pb k).2 (bY.get k)) := by
      unfold edgeStep
      rw [hax, Py.ok_bind, at' ax lax, Py.ok_bind, st _ _ _ _ (by omega) (by omega), Py.ok_bind, hay, Py.ok_bind,
        at' ay lay, Py.ok_bind, st _ _ _ _ (by omega) (by omega), Py.ok_bind, hbx, Py.ok_bind, at' bx lbx, Py.ok_bind,
        st (s.1.set (pa k).1 (pa k).2 (ax.get k)) _ _ _ (by show _ < s.1.rows; omega) (by show _ < s.1.cols; omega), Py.ok_bind,
        hby, Py.ok_bind, at' bY lby, Py.ok_bind,
        st (s.2.set (pa k).1 (pa k).2 (ay.get k)) _ _ _ (by show _ < s.2.rows; omega) (by show _ < s.2.cols; omega), Py.ok_bind]
      rfl
    have get : ∀ (m : Mat F) (p q : Nat × Nat) (x y : F) (r c : Nat), ((m.set p.1 p.2 x).set q.1 q.2 y).get r c =
        if (r, c) = q then y else if (r, c) = p then x else m.get r c := by
      intro m p q x y r c
      unfold Mat.set
      dsimp only
      simp only [Prod.ext_iff]
    rw [step, Py.ok_bind, List.foldlM_nil]
    refine ⟨_, rfl, ⟨s1, s2, s3, s4⟩, fun i hi => ?_, fun r c h => ?_⟩
    · unfold Spec.at
      dsimp only
      rw [get, get, get, get]
      by_cases hik : i = k
      · subst hik
        constructor
        · rw [if_neg (dis i i), if_pos rfl, if_neg (dis i i), if_pos rfl]
        · rw [if_pos rfl, if_pos rfl]
      · have vi := v i (by omega)
        constructor
        · rw [if_neg (dis i k), if_neg (fun hh => hik (ia i k hh)), if_neg (dis i k),
            if_neg (fun hh => hik (ia i k hh))]
          exact vi.1
        · rw [if_neg (fun hh => hik (ib i k hh)), if_neg (fun hh => dis k i hh.symm),
            if_neg (fun hh => hik (ib i k hh)), if_neg (fun hh => dis k i hh.symm)]
          exact vi.2
    · have := h k (by omega)
      unfold Spec.at
      dsimp only
      rw [get, get, if_neg this.2, if_neg this.1, if_neg this.2, if_neg this.1]
      exact w r c (fun i hi => h i (by omega))

/-- Filling a 3 x (2n-1) grid whose first and last row hold `n` points each. -/
theorem rowLine [FloatOrder F] (geod : Geod F) (s : Mat F × Mat F) (n : Nat) (hn : 2 ≤ n)
    (hs : s.1.rows = 3 ∧ s.1.cols = 2 * n - 1 ∧ s.2.rows = 3 ∧ s.2.cols = 2 * n - 1)
    (hz : ∀ r c, r = 1 ∨ c % 2 = 1 → s.1.get r c = Arith.zero) :
    ∃ x y : Vec F, (do
      let s ← fill geod s.1 s.2 0 2 0 (2 * (n - 1)) 1 1
      let x ← s.1.sel (.row 1)
      let y ← s.2.sel (.row 1)
      return (x, y) : Py (Vec F × Vec F)) = .ok (x, y) ∧ x.len = 2 * n - 1 ∧ y.len = 2 * n - 1 ∧
      ∀ nn : Prop, (nn ↔ ∀ i, i < n → PyFloat.lt (s.1.get 0 (2 * i)) Arith.zero = false ∧
        PyFloat.lt (s.1.get 2 (2 * i)) Arith.zero = false) →
      (∀ i, i < n → Spec.Mid geod nn (Spec.at s 0 (2 * i)) (Spec.at s 2 (2 * i)) (x.get (2 * i), y.get (2 * i))) ∧
      ∀ i, i + 1 < n → Spec.Mid geod nn (x.get (2 * i), y.get (2 * i)) (x.get (2 * i + 2), y.get (2 * i + 2))
        (x.get (2 * i + 1), y.get (2 * i + 1)) := by
  obtain ⟨h1, h2, h3, h4⟩ := hs
  have hw : Spec.FillWindow s.1 s.2 0 2 0 (2 * (n - 1)) 1 1 :=
    ⟨by omega, by omega, by omega, by omega, ⟨1, by omega, by omega⟩, ⟨n - 1, by omega, by omega⟩, by omega, by omega⟩
  obtain ⟨t, e, ⟨t1, t2, t3, t4⟩, _, _⟩ := C17_fill_preserves geod s.1 s.2 _ _ _ _ _ _ hw
  obtain ⟨t', e', vx, vy⟩ := C18_fill_subdivides geod s.1 s.2 _ _ _ _ _ _ hw
  rw [e] at e'
  cases e'
  have p1 : pyIdx 3 1 = some 1 := by decide
  refine ⟨⟨t.1.cols, fun j => t.1.get 1 j⟩, ⟨t.2.cols, fun j => t.2.get 1 j⟩, ?_, ?_, ?_, ?_⟩
  · rw [e, Py.ok_bind]
    unfold Mat.sel
    dsimp only
    rw [t1, t3, h1, p1]
    rfl
  · show t.1.cols = _; omega
  · show t.2.cols = _; omega
  intro nn hnn
  have hN : Spec.NonNeg s.1 ↔ nn := by
    rw [hnn]
    constructor
    · intro h i hi
      exact ⟨h 0 (2 * i) (by omega) (by omega), h 2 (2 * i) (by omega) (by omega)⟩
    · intro h r c hr hc
      by_cases hz' : r = 1 ∨ c % 2 = 1
      · rw [hz r c hz']; exact FloatOrder.irrefl _
      · have := h (c / 2) (by omega)
        rw [show 2 * (c / 2) = c by omega] at this
        rcases (show r = 0 ∨ r = 2 by omega) with rfl | rfl
        · exact this.1
        · exact this.2
  refine ⟨fun i hi => ?_, fun i hi => ?_⟩
  · have := vx 0 i 0 (by omega) (by omega) (by omega)
    rw [show 0 + i * (2 * 1) = 2 * i by omega] at this
    exact Mid_of_IsSub geod s.1 nn hN _ _ _ this
  · have := vy 1 i 0 (by omega) (by omega) (by omega) (by omega)
    rw [show 0 + i * (2 * 1) = 2 * i by omega, show 0 + (i + 1) * (2 * 1) = 2 * i + 2 by omega] at this
    exact Mid_of_IsSub geod s.1 nn hN _ _ _ this

/-- Filling a (2n-1) x 3 grid whose first and last column hold `n` points each. -/
theorem colLine [FloatOrder F] (geod : Geod F) (s : Mat F × Mat F) (n : Nat) (hn : 2 ≤ n)
    (hs : s.1.rows = 2 * n - 1 ∧ s.1.cols = 3 ∧ s.2.rows = 2 * n - 1 ∧ s.2.cols = 3)
    (hz : ∀ r c, c = 1 ∨ r % 2 = 1 → s.1.get r c = Arith.zero) :
    ∃ x y : Vec F, (do
      let s ← fill geod s.1 s.2 0 (2 * (n - 1)) 0 2 1 1
      let x ← s.1.sel (.col 1)
      let y ← s.2.sel (.col 1)
      return (x, y) : Py (Vec F × Vec F)) = .ok (x, y) ∧ x.len = 2 * n - 1 ∧ y.len = 2 * n - 1 ∧
      ∀ nn : Prop, (nn ↔ ∀ i, i < n → PyFloat.lt (s.1.get (2 * i) 0) Arith.zero = false ∧
        PyFloat.lt (s.1.get (2 * i) 2) Arith.zero = false) →
      (∀ i, i < n → Spec.Mid geod nn (Spec.at s (2 * i) 0) (Spec.at s (2 * i) 2) (x.get (2 * i), y.get (2 * i))) ∧
      ∀ i, i + 1 < n → ∃ p q, Spec.Mid geod nn (Spec.at s (2 * i) 0) (Spec.at s (2 * i + 2) 0) p ∧
        Spec.Mid geod nn (Spec.at s (2 * i) 2) (Spec.at s (2 * i + 2) 2) q ∧
        Spec.Mid geod nn p q (x.get (2 * i + 1), y.get (2 * i + 1)) := by
  obtain ⟨h1, h2, h3, h4⟩ := hs
  have hw : Spec.FillWindow s.1 s.2 0 (2 * (n - 1)) 0 2 1 1 :=
    ⟨by omega, by omega, by omega, by omega, ⟨n - 1, by omega, by omega⟩, ⟨1, by omega, by omega⟩, by omega, by omega⟩
  obtain ⟨t, e, ⟨t1, t2, t3, t4⟩, _, keep⟩ := C17_fill_preserves geod s.1 s.2 _ _ _ _ _ _ hw
  obtain ⟨t', e', vx, vy⟩ := C18_fill_subdivides geod s.1 s.2 _ _ _ _ _ _ hw
  rw [e] at e'
  cases e'
  have p1 : pyIdx 3 1 = some 1 := by decide
  refine ⟨⟨t.1.rows, fun j => t.1.get j 1⟩, ⟨t.2.rows, fun j => t.2.get j 1⟩, ?_, ?_, ?_, ?_⟩
  · rw [e, Py.ok_bind]
    unfold Mat.sel
    dsimp only
    rw [t2, t4, h2, p1]
    rfl
  · show t.1.rows = _; omega
  · show t.2.rows = _; omega
  intro nn hnn
  have hN : Spec.NonNeg s.1 ↔ nn := by
    rw [hnn]
    constructor
    · intro h i hi
      exact ⟨h (2 * i) 0 (by omega) (by omega), h (2 * i) 2 (by omega) (by omega)⟩
    · intro h r c hr hc
      by_cases hz' : c = 1 ∨ r % 2 = 1
      · rw [hz r c hz']; exact FloatOrder.irrefl _
      · have := h (r / 2) (by omega)
        rw [show 2 * (r / 2) = r by omega] at this
        rcases (show c = 0 ∨ c = 2 by omega) with rfl | rfl
        · exact this.1
        · exact this.2
  refine ⟨fun i hi => ?_, fun i hi => ?_⟩
  · have := vy (2 * i) 0 0 (by omega) (by omega) (by omega) (by omega)
    have k0 := keep i 0
    have k1 := keep i 1
    rw [show 0 + i * (2 * 1) = 2 * i by omega] at k0 k1
    rw [k0, k1] at this
    exact Mid_of_IsSub geod s.1 nn hN _ _ _ this
  · have a := vx i 0 0 (by omega) (by omega) (by omega)
    have b := vx i 1 0 (by omega) (by omega) (by omega)
    have c := vy (2 * i + 1) 0 0 (by omega) (by omega) (by omega) (by omega)
    rw [show 0 + i * (2 * 1) = 2 * i by omega, show 0 + (i + 1) * (2 * 1) = 2 * i + 2 by omega] at a b
    exact ⟨_, _, Mid_of_IsSub geod s.1 nn hN _ _ _ a, Mid_of_IsSub geod s.1 nn hN _ _ _ b,
      Mid_of_IsSub geod s.1 nn hN _ _ _ c⟩

/-- The two lines in increasing grid index: tile A's edge comes first if B lies to the east or north. -/
def Spec.firstPt (aXG aYG bXG bYG : Mat F) (ae be : Edge) (i : Nat) : F × F :=
  match ae with
  | .E | .N => Spec.edgePt aXG aYG ae i
  | .W | .S => Spec.nextPt bXG bYG be i
def Spec.secondPt (aXG aYG bXG bYG : Mat F) (ae be : Edge) (i : Nat) : F × F :=
  match ae with
  | .E | .N => Spec.nextPt bXG bYG be i
  | .W | .S => Spec.edgePt aXG aYG ae i

/-- No longitude of tile A's edge and of tile B's next line is negative. -/
def Spec.LinesNonNeg (aXG aYG bXG bYG : Mat F) (ae be : Edge) : Prop :=
  ∀ i, i < Spec.along aXG ae → PyFloat.lt (Spec.edgePt aXG aYG ae i).1 Arith.zero = false ∧
    PyFloat.lt (Spec.nextPt bXG bYG be i).1 Arith.zero = false

/-- What the interpolated edge contains. -/
structure Spec.EdgeInterp (geod : Geod F) (aXG aYG bXG bYG : Mat F) (ae be : Edge) (x y : Vec F) : Prop where
  lenx : x.len = 2 * Spec.along aXG ae - 1
  leny : y.len = 2 * Spec.along aXG ae - 1
  even : ∀ i, i < Spec.along aXG ae → Spec.Mid geod (Spec.LinesNonNeg aXG aYG bXG bYG ae be)
    (Spec.firstPt aXG aYG bXG bYG ae be i) (Spec.secondPt aXG aYG bXG bYG ae be i) (x.get (2 * i), y.get (2 * i))
  oddEW : (ae = .E ∨ ae = .W) → ∀ i, i + 1 < Spec.along aXG ae →
    Spec.Mid geod (Spec.LinesNonNeg aXG aYG bXG bYG ae be)
      (x.get (2 * i), y.get (2 * i)) (x.get (2 * i + 2), y.get (2 * i + 2)) (x.get (2 * i + 1), y.get (2 * i + 1))
  oddNS : (ae = .N ∨ ae = .S) → ∀ i, i + 1 < Spec.along aXG ae → ∃ p q,
    Spec.Mid geod (Spec.LinesNonNeg aXG aYG bXG bYG ae be)
      (Spec.firstPt aXG aYG bXG bYG ae be i) (Spec.firstPt aXG aYG bXG bYG ae be (i + 1)) p ∧
    Spec.Mid geod (Spec.LinesNonNeg aXG aYG bXG bYG ae be)
      (Spec.secondPt aXG aYG bXG bYG ae be i) (Spec.secondPt aXG aYG bXG bYG ae be (i + 1)) q ∧
    Spec.Mid geod (Spec.LinesNonNeg aXG aYG bXG bYG ae be) p q (x.get (2 * i + 1), y.get (2 * i + 1))

theorem edgeLine_spec [FloatOrder F] (geod : Geod F) (aXG aYG bXG bYG : Mat F) (ha : Spec.Tile2 aXG aYG)
    (hb : Spec.Tile2 bXG bYG) (ae be : Edge) (hf : Spec.Fits aXG bXG ae be) :
    ∃ x y, edgeLine geod aXG aYG bXG bYG ae be = .ok (x, y) ∧
      Spec.EdgeInterp geod aXG aYG bXG bYG ae be x y := by
  obtain ⟨a1, a2, a3, a4⟩ := ha
  obtain ⟨b1, b2, b3, b4⟩ := hb
  obtain ⟨hn, hle, hd⟩ := hf
  obtain ⟨sax, say⟩ := sel_edge aXG aYG a1 a2 a3 a4 ae
  obtain ⟨sbx, sby⟩ := sel_next bXG bYG b1 b2 be hd
  have fold := fun (pa pb : Nat → Nat × Nat) (R C : Nat) =>
    edgeFold aXG aYG bXG bYG (edgeSlice ae) (edgeNextSlice be) pa pb _ _ _ _ (Spec.along aXG ae) sax say sbx sby
      (Nat.le_refl _) (Nat.le_refl _) hle hle (Mat.full R C Arith.zero) (Mat.full R C Arith.zero) rfl rfl
  have pe : ∀ (a b i j : Nat), ((a, 2 * i) = (b, 2 * j) ↔ a = b ∧ i = j) := by
    intro a b i j
    constructor
    · intro h; injection h with h1 h2; exact ⟨h1, by omega⟩
    · rintro ⟨rfl, rfl⟩; rfl
  have pe' : ∀ (a b i j : Nat), ((2 * i, a) = (2 * j, b) ↔ a = b ∧ i = j) := by
    intro a b i j
    constructor
    · intro h; injection h with h1 h2; exact ⟨h2, by omega⟩
    · rintro ⟨rfl, rfl⟩; rfl
  cases ae with
  | E =>
    obtain ⟨s, e, sh, v, w⟩ := fold (fun i => (0, 2 * i)) (fun i => (2, 2 * i)) 3 (2 * aXG.cols - 1)
      (fun i hi => ⟨by show 0 < 3; omega, by show 2 * i < 2 * aXG.cols - 1; change i < aXG.cols at hi; omega⟩)
      (fun i hi => ⟨by show 2 < 3; omega, by show 2 * i < 2 * aXG.cols - 1; change i < aXG.cols at hi; omega⟩)
      (fun i j h => ((pe _ _ _ _).1 h).2) (fun i j h => ((pe _ _ _ _).1 h).2)
      (fun i j h => by have := ((pe _ _ _ _).1 h).1; omega) aXG.cols (Nat.le_refl _)
    obtain ⟨x, y, r, l1, l2, m⟩ := rowLine geod s aXG.cols hn sh (fun r c h => by
      have := w r c (fun i hi => ⟨fun hh => by injection hh; omega, fun hh => by injection hh; omega⟩)
      exact congrArg Prod.fst this)
    have ab : ∀ i, i < aXG.cols → Spec.at s 0 (2 * i) = Spec.edgePt aXG aYG .E i ∧
        Spec.at s 2 (2 * i) = Spec.nextPt bXG bYG be i := fun i hi => v i hi
    have hm := m (Spec.LinesNonNeg aXG aYG bXG bYG .E be) (by
      unfold Spec.LinesNonNeg
      refine forall_congr' fun i => forall_congr' fun hi => ?_
      rw [← (ab i hi).1, ← (ab i hi).2]; rfl)
    refine ⟨x, y, ?_, l1, l2, fun i hi => ?_, fun _ => hm.2, (fun h => by rcases h with h | h <;> cases h)⟩
    · unfold edgeLine
      dsimp only
      rw [e, Py.ok_bind]
      exact r
    · have := hm.1 i hi
      rw [(ab i hi).1, (ab i hi).2] at this
      exact this
  | W =>
    obtain ⟨s, e, sh, v, w⟩ := fold (fun i => (2, 2 * i)) (fun i => (0, 2 * i)) 3 (2 * aXG.cols - 1)
      (fun i hi => ⟨by show 2 < 3; omega, by show 2 * i < 2 * aXG.cols - 1; change i < aXG.cols at hi; omega⟩)
      (fun i hi => ⟨by show 0 < 3; omega, by show 2 * i < 2 * aXG.cols - 1; change i < aXG.cols at hi; omega⟩)
      (fun i j h => ((pe _ _ _ _).1 h).2) (fun i j h => ((pe _ _ _ _).1 h).2)
      (fun i j h => by have := ((pe _ _ _ _).1 h).1; omega) aXG.cols (Nat.le_refl _)
    obtain ⟨x, y, r, l1, l2, m⟩ := rowLine geod s aXG.cols hn sh (fun r c h => by
      have := w r c (fun i hi => ⟨fun hh => by injection hh; omega, fun hh => by injection hh; omega⟩)
      exact congrArg Prod.fst this)
    have ab : ∀ i, i < aXG.cols → Spec.at s 2 (2 * i) = Spec.edgePt aXG aYG .W i ∧
        Spec.at s 0 (2 * i) = Spec.nextPt bXG bYG be i := fun i hi => v i hi
    have hm := m (Spec.LinesNonNeg aXG aYG bXG bYG .W be) (by
      unfold Spec.LinesNonNeg
      refine forall_congr' fun i => forall_congr' fun hi => ?_
      rw [← (ab i hi).1, ← (ab i hi).2]; exact And.comm)
    refine ⟨x, y, ?_, l1, l2, fun i hi => ?_, fun _ => hm.2, (fun h => by rcases h with h | h <;> cases h)⟩
    · unfold edgeLine
      dsimp only
      rw [e, Py.ok_bind]
      exact r
    · have := hm.1 i hi
      rw [(ab i hi).1, (ab i hi).2] at this
      exact this
  | N =>
    obtain ⟨s, e, sh, v, w⟩ := fold (fun i => (2 * i, 0)) (fun i => (2 * i, 2)) (2 * aXG.rows - 1) 3
      (fun i hi => ⟨by show 2 * i < 2 * aXG.rows - 1; change i < aXG.rows at hi; omega, by show 0 < 3; omega⟩)
      (fun i hi => ⟨by show 2 * i < 2 * aXG.rows - 1; change i < aXG.rows at hi; omega, by show 2 < 3; omega⟩)
      (fun i j h => ((pe' _ _ _ _).1 h).2) (fun i j h => ((pe' _ _ _ _).1 h).2)
      (fun i j h => by have := ((pe' _ _ _ _).1 h).1; omega) aXG.rows (Nat.le_refl _)
    obtain ⟨x, y, r, l1, l2, m⟩ := colLine geod s aXG.rows hn sh (fun r c h => by
      have := w r c (fun i hi => ⟨fun hh => by injection hh; omega, fun hh => by injection hh; omega⟩)
      exact congrArg Prod.fst this)
    have ab : ∀ i, i < aXG.rows → Spec.at s (2 * i) 0 = Spec.edgePt aXG aYG .N i ∧
        Spec.at s (2 * i) 2 = Spec.nextPt bXG bYG be i := fun i hi => v i hi
    have hm := m (Spec.LinesNonNeg aXG aYG bXG bYG .N be) (by
      unfold Spec.LinesNonNeg
      refine forall_congr' fun i => forall_congr' fun hi => ?_
      rw [← (ab i hi).1, ← (ab i hi).2]; rfl)
    refine ⟨x, y, ?_, l1, l2, fun i hi => ?_, (fun h => by rcases h with h | h <;> cases h), fun _ i hi => ?_⟩
    · unfold edgeLine
      dsimp only
      rw [e, Py.ok_bind]
      exact r
    · have := hm.1 i hi
      rw [(ab i hi).1, (ab i hi).2] at this
      exact this
    · have := hm.2 i hi
      rw [(ab i (Nat.lt_of_succ_lt hi)).1, (ab i (Nat.lt_of_succ_lt hi)).2, show 2 * i + 2 = 2 * (i + 1) by omega, (ab (i + 1) hi).1,
        (ab (i + 1) hi).2] at this
      exact this
  | S =>
    obtain ⟨s, e, sh, v, w⟩ := fold (fun i => (2 * i, 2)) (fun i => (2 * i, 0)) (2 * aXG.rows - 1) 3
      (fun i hi => ⟨by show 2 * i < 2 * aXG.rows - 1; change i < aXG.rows at hi; omega, by show 2 < 3; omega⟩)
      (fun i hi => ⟨by show 2 * i < 2 * aXG.rows - 1; change i < aXG.rows at hi; omega, by show 0 < 3; omega⟩)
      (fun i j h => ((pe' _ _ _ _).1 h).2) (fun i j h => ((pe' _ _ _ _).1 h).2)
      (fun i j h => by have := ((pe' _ _ _ _).1 h).1; omega) aXG.rows (Nat.le_refl _)
    obtain ⟨x, y, r, l1, l2, m⟩ := colLine geod s aXG.rows hn sh (fun r c h => by
      have := w r c (fun i hi => ⟨fun hh => by injection hh; omega, fun hh => by injection hh; omega⟩)
      exact congrArg Prod.fst this)
    have ab : ∀ i, i < aXG.rows → Spec.at s (2 * i) 2 = Spec.edgePt aXG aYG .S i ∧
        Spec.at s (2 * i) 0 = Spec.nextPt bXG bYG be i := fun i hi => v i hi
    have hm := m (Spec.LinesNonNeg aXG aYG bXG bYG .S be) (by
      unfold Spec.LinesNonNeg
      refine forall_congr' fun i => forall_congr' fun hi => ?_
      rw [← (ab i hi).1, ← (ab i hi).2]; exact And.comm)
    refine ⟨x, y, ?_, l1, l2, fun i hi => ?_, (fun h => by rcases h with h | h <;> cases h), fun _ i hi => ?_⟩
    · unfold edgeLine
      dsimp only
      rw [e, Py.ok_bind]
      exact r
    · have := hm.1 i hi
      rw [(ab i hi).1, (ab i hi).2] at this
      exact this
    · have := hm.2 i hi
      rw [(ab i (Nat.lt_of_succ_lt hi)).1, (ab i (Nat.lt_of_succ_lt hi)).2, show 2 * i + 2 = 2 * (i + 1) by omega, (ab (i + 1) hi).1,
        (ab (i + 1) hi).2] at this
      exact this

/-! ## Properties -/

/-- `matchedges` looked at the corners only if the tiles are not empty. -/
theorem matchedges_tiles (geod : Geod F) (aXG aYG bXG bYG : Mat F) (m : Matched F)
    (ha : aYG.rows = aXG.rows ∧ aYG.cols = aXG.cols) (hb : bYG.rows = bXG.rows ∧ bYG.cols = bXG.cols)
    (h : matchedges geod aXG aYG bXG bYG = .ok m) : Spec.Tile2 aXG aYG ∧ Spec.Tile2 bXG bYG := by
  have ne : ∀ (x : Mat F) v, x.atI 0 0 = .ok v → 0 < x.rows ∧ 0 < x.cols := by
    intro x v hx
    unfold Mat.atI at hx
    have n0 : pyIdx 0 0 = none := by decide
    constructor
    · rcases Nat.eq_zero_or_pos x.rows with h0 | h0
      · rw [h0, n0] at hx; cases hx
      · exact h0
    · rcases Nat.eq_zero_or_pos x.cols with h0 | h0
      · rw [h0, n0] at hx
        split at hx
        · rename_i hh; cases hh
        · cases hx
      · exact h0
  have key : ∀ (x y x' y' : Mat F) (c : Int × Int) (v : F), cornerDist geod x y x' y' (0, 0) c = .ok v →
      0 < x.rows ∧ 0 < x.cols := by
    intro x y x' y' c v hv
    unfold cornerDist at hv
    cases h0 : x.atI 0 0 with
    | error e => rw [h0] at hv; cases hv
    | ok w => exact ne x w h0
  unfold matchedges at h
  cases h1 : cornerDist geod aXG aYG aXG aYG (0, 0) (-1, -1) with
  | error e => rw [h1] at h; cases h
  | ok a1 =>
    rw [h1, Py.ok_bind] at h
    cases h2 : cornerDist geod aXG aYG aXG aYG (-1, 0) (0, -1) with
    | error e => rw [h2] at h; cases h
    | ok a2 =>
      rw [h2, Py.ok_bind] at h
      cases h3 : cornerDist geod bXG bYG bXG bYG (0, 0) (-1, -1) with
      | error e => rw [h3] at h; cases h
      | ok b1 =>
        exact ⟨⟨ha.1, ha.2, key _ _ _ _ _ _ h1⟩, ⟨hb.1, hb.2, key _ _ _ _ _ _ h3⟩⟩

theorem matchedges_shape (geod : Geod F) (aXG aYG bXG bYG : Mat F) (m : Matched F)
    (h : matchedges geod aXG aYG bXG bYG = .ok m) :
    Spec.Opposite (m.aEdge, m.bEdge) ∧ m.aSlice = edgeSlice m.aEdge ∧ m.bSlice = edgeSlice m.bEdge ∧
      m.join = joinSlice m.aEdge ∧ edgeLine geod aXG aYG bXG bYG m.aEdge m.bEdge = .ok (m.edgeXg, m.edgeYg) := by
  unfold matchedges at h
  cases h1 : cornerDist geod aXG aYG aXG aYG (0, 0) (-1, -1) with
  | error e => rw [h1] at h; cases h
  | ok a1 =>
    rw [h1, Py.ok_bind] at h
    cases h2 : cornerDist geod aXG aYG aXG aYG (-1, 0) (0, -1) with
    | error e => rw [h2] at h; cases h
    | ok a2 =>
      rw [h2, Py.ok_bind] at h
      cases h3 : cornerDist geod bXG bYG bXG bYG (0, 0) (-1, -1) with
      | error e => rw [h3] at h; cases h
      | ok b1 =>
        rw [h3, Py.ok_bind] at h
        cases h4 : cornerDist geod bXG bYG bXG bYG (-1, 0) (0, -1) with
        | error e => rw [h4] at h; cases h
        | ok b2 =>
          rw [h4, Py.ok_bind] at h
          cases h5 : minDists (fun ca cb => cornerDist geod aXG aYG bXG bYG ca cb) with
          | error e => rw [h5] at h; cases h
          | ok ab =>
            rw [h5, Py.ok_bind] at h
            cases h6 : minDists (fun cb ca => cornerDist geod aXG aYG bXG bYG ca cb) with
            | error e => rw [h6] at h; cases h
            | ok ba =>
              rw [h6, Py.ok_bind] at h
              dsimp only at h
              split at h
              · cases h
              · split at h
                · cases h
                · rename_i ae _
                  split at h
                  · cases h
                  · rename_i be _
                    by_cases ho : Spec.Opposite (ae, be)
                    · rw [if_neg (fun hh => (opposite_iff ae be).1 hh ho)] at h
                      cases h7 : edgeLine geod aXG aYG bXG bYG ae be with
                      | error e => rw [h7] at h; cases h
                      | ok xy =>
                        rw [h7] at h
                        cases h
                        exact ⟨ho, rfl, rfl, rfl, h7⟩
                    · rw [if_pos ((opposite_iff ae be).2 ho)] at h
                      cases h

/-- **C40**: when `matchedges` succeeds the edges are opposite, and the returned slices select exactly these edges. -/
theorem C40_only_opposite (geod : Geod F) (aXG aYG bXG bYG : Mat F) (m : Matched F)
    (h : matchedges geod aXG aYG bXG bYG = .ok m) :
    Spec.Opposite (m.aEdge, m.bEdge) ∧
    ∀ (t t' : Mat F), Spec.Tile2 t t' →
      t.sel m.aSlice = .ok ⟨Spec.along t m.aEdge, fun i => (Spec.edgePt t t' m.aEdge i).1⟩ ∧
      t.sel m.bSlice = .ok ⟨Spec.along t m.bEdge, fun i => (Spec.edgePt t t' m.bEdge i).1⟩ := by
  have key := matchedges_shape geod _ _ _ _ m h
  refine ⟨key.1, fun t t' ht => ?_⟩
  obtain ⟨t1, t2, t3, t4⟩ := ht
  rw [key.2.1, key.2.2.1]
  exact ⟨(sel_edge t t' t1 t2 t3 t4 _).1, (sel_edge t t' t1 t2 t3 t4 _).1⟩

/-- **C41** (soundness): the reported edges are the first ones, in the order W, E, S, N, both of whose corners are
within the tolerance of some corner of the other tile. -/
theorem C41_reported_edges [FloatTotal F] (geod : Geod F) (aXG aYG bXG bYG : Mat F) (m : Matched F)
    (ha : aYG.rows = aXG.rows ∧ aYG.cols = aXG.cols) (hb : bYG.rows = bXG.rows ∧ bYG.cols = bXG.cols)
    (hfin : PyFloat.le PyFloat.inf (Spec.tolerance geod aXG aYG bXG bYG) = false)
    (h : matchedges geod aXG aYG bXG bYG = .ok m) :
    Spec.FirstEdge (Spec.NearA geod aXG aYG bXG bYG) m.aEdge ∧
    Spec.FirstEdge (Spec.NearB geod aXG aYG bXG bYG) m.bEdge := by
  obtain ⟨ta, tb⟩ := matchedges_tiles geod _ _ _ _ m ha hb h
  rcases matchedges_spec geod _ _ _ _ ta tb hfin with ⟨ae, be, h1, h2, _, e⟩ | ⟨_, e⟩
  · rw [e] at h
    cases hl : edgeLine geod aXG aYG bXG bYG ae be with
    | error e => rw [hl] at h; cases h
    | ok xy => rw [hl] at h; cases h; exact ⟨h1, h2⟩
  · rw [e] at h; cases h

/-- **C41** (rejection): if one of the tiles has no edge with both corners near, or the first such edges are not
opposite, `matchedges` raises `ValueError`. -/
theorem C41_rejects [FloatTotal F] (geod : Geod F) (aXG aYG bXG bYG : Mat F)
    (ha : Spec.Tile2 aXG aYG) (hb : Spec.Tile2 bXG bYG)
    (hfin : PyFloat.le PyFloat.inf (Spec.tolerance geod aXG aYG bXG bYG) = false)
    (h : (¬ ∃ e, Spec.EdgeNear (Spec.NearA geod aXG aYG bXG bYG) e) ∨
      (¬ ∃ e, Spec.EdgeNear (Spec.NearB geod aXG aYG bXG bYG) e) ∨
      ∃ ae be, Spec.FirstEdge (Spec.NearA geod aXG aYG bXG bYG) ae ∧
        Spec.FirstEdge (Spec.NearB geod aXG aYG bXG bYG) be ∧ ¬ Spec.Opposite (ae, be)) :
    matchedges geod aXG aYG bXG bYG = .error .valueError := by
  have uniq : ∀ (p : Spec.Corner → Prop) e e', Spec.FirstEdge p e → Spec.FirstEdge p e' → e = e' := by
    intro p e e' ⟨h1, h2⟩ ⟨h1', h2'⟩
    rcases Nat.lt_trichotomy (Spec.rank e) (Spec.rank e') with hh | hh | hh
    · exact absurd h1 (h2' e hh)
    · cases e <;> cases e' <;> first | rfl | exact absurd hh (by decide)
    · exact absurd h1' (h2 e' hh)
  rcases matchedges_spec geod _ _ _ _ ha hb hfin with ⟨ae, be, h1, h2, h3, _⟩ | ⟨_, e⟩
  · exfalso
    rcases h with h | h | ⟨ae', be', h4, h5, h6⟩
    · exact h ⟨ae, h1.1⟩
    · exact h ⟨be, h2.1⟩
    · rw [uniq _ _ _ h1 h4, uniq _ _ _ h2 h5] at h3; exact h6 h3
  · exact e

/-- **C41** (completeness): when the first edges with near corners are opposite and the tiles fit, `matchedges`
succeeds and reports them. -/
theorem C41_accepts [FloatTotal F] (geod : Geod F) (aXG aYG bXG bYG : Mat F) (ae be : Edge)
    (ha : Spec.Tile2 aXG aYG) (hb : Spec.Tile2 bXG bYG)
    (hfin : PyFloat.le PyFloat.inf (Spec.tolerance geod aXG aYG bXG bYG) = false)
    (h1 : Spec.FirstEdge (Spec.NearA geod aXG aYG bXG bYG) ae)
    (h2 : Spec.FirstEdge (Spec.NearB geod aXG aYG bXG bYG) be)
    (h3 : Spec.Opposite (ae, be)) (hf : Spec.Fits aXG bXG ae be) :
    ∃ m, matchedges geod aXG aYG bXG bYG = .ok m ∧ m.aEdge = ae ∧ m.bEdge = be := by
  have uniq : ∀ (p : Spec.Corner → Prop) e e', Spec.FirstEdge p e → Spec.FirstEdge p e' → e = e' := by
    intro p e e' ⟨h1, h2⟩ ⟨h1', h2'⟩
    rcases Nat.lt_trichotomy (Spec.rank e) (Spec.rank e') with hh | hh | hh
    · exact absurd h1 (h2' e hh)
    · cases e <;> cases e' <;> first | rfl | exact absurd hh (by decide)
    · exact absurd h1' (h2 e' hh)
  rcases matchedges_spec geod _ _ _ _ ha hb hfin with ⟨ae', be', h4, h5, _, e⟩ | ⟨hno, _⟩
  · cases uniq _ _ _ h1 h4
    cases uniq _ _ _ h2 h5
    obtain ⟨x, y, hl, _⟩ := edgeLine_spec geod aXG aYG bXG bYG ha hb ae be hf
    exact ⟨⟨ae, edgeSlice ae, be, edgeSlice be, x, y, joinSlice ae⟩, by rw [e, hl]; rfl, rfl, rfl⟩
  · exact absurd h3 (hno ae be h1 h2)

/-- **C42**: if every corner of each tile is within the tolerance of some corner of the other one, `matchedges` raises
`ValueError`. -/
theorem C42_all_corners_near [FloatTotal F] (geod : Geod F) (aXG aYG bXG bYG : Mat F)
    (ha : Spec.Tile2 aXG aYG) (hb : Spec.Tile2 bXG bYG)
    (hfin : PyFloat.le PyFloat.inf (Spec.tolerance geod aXG aYG bXG bYG) = false)
    (hA : ∀ c, Spec.NearA geod aXG aYG bXG bYG c) (hB : ∀ c, Spec.NearB geod aXG aYG bXG bYG c) :
    matchedges geod aXG aYG bXG bYG = .error .valueError := by
  have fw : ∀ p : Spec.Corner → Prop, (∀ c, p c) → Spec.FirstEdge p .W := fun p h =>
    ⟨fun c _ => h c, fun e' he => by cases e' <;> exact absurd he (by decide)⟩
  exact C41_rejects geod _ _ _ _ ha hb hfin (Or.inr (Or.inr ⟨.W, .W, fw _ hA, fw _ hB, id⟩))

/-- **C42**: two tiles with the same four corner points, in any arrangement, do not match (the distance of a point to
itself being within the tolerance). -/
theorem C42_coinciding_corners [FloatTotal F] (geod : Geod F) (aXG aYG bXG bYG : Mat F)
    (ha : Spec.Tile2 aXG aYG) (hb : Spec.Tile2 bXG bYG)
    (hfin : PyFloat.le PyFloat.inf (Spec.tolerance geod aXG aYG bXG bYG) = false)
    (hself : ∀ c, PyFloat.le (Spec.cdist geod (Spec.cornerPt aXG aYG c) (Spec.cornerPt aXG aYG c))
      (Spec.tolerance geod aXG aYG bXG bYG) = true)
    (hA : ∀ c, ∃ c', Spec.cornerPt aXG aYG c = Spec.cornerPt bXG bYG c')
    (hB : ∀ c, ∃ c', Spec.cornerPt bXG bYG c = Spec.cornerPt aXG aYG c') :
    matchedges geod aXG aYG bXG bYG = .error .valueError := by
  refine C42_all_corners_near geod _ _ _ _ ha hb hfin (fun c => ?_) (fun c => ?_)
  · obtain ⟨c', h⟩ := hA c
    exact ⟨c', by rw [← h]; exact hself _⟩
  · obtain ⟨c', h⟩ := hB c
    exact ⟨c', by rw [h]; exact hself _⟩

/-- **C42**: a tile does not match itself, whatever the distances and tolerance, if distances are symmetric. -/
theorem C42_self [FloatTotal F] (geod : Geod F) (aXG aYG : Mat F) (ha : Spec.Tile2 aXG aYG)
    (hfin : PyFloat.le PyFloat.inf (Spec.tolerance geod aXG aYG aXG aYG) = false)
    (hsym : ∀ p q, Spec.cdist geod p q = Spec.cdist geod q p) :
    matchedges geod aXG aYG aXG aYG = .error .valueError := by
  have hAB : ∀ c, Spec.NearA geod aXG aYG aXG aYG c ↔ Spec.NearB geod aXG aYG aXG aYG c := by
    intro c
    unfold Spec.NearA Spec.NearB
    exact exists_congr fun c' => by rw [hsym]
  by_cases hx : ∃ e, Spec.EdgeNear (Spec.NearA geod aXG aYG aXG aYG) e
  · obtain ⟨e, he⟩ := (FirstEdge_exists _).1 hx
    refine C41_rejects geod _ _ _ _ ha ha hfin (Or.inr (Or.inr ⟨e, e, he, (FirstEdge_congr hAB e).1 he, ?_⟩))
    cases e <;> exact id
  · exact C41_rejects geod _ _ _ _ ha ha hfin (Or.inl hx)

/-- **C63**: the edge returned by `matchedges` has `2n-1` points for the `n` points of A's edge; every even one is the
midpoint between the point of A's edge and the corresponding point of the line of B next to the common edge; the odd
ones are midpoints of their neighbours along the line (east/west), or midpoints across of midpoints along (north/south).
The returned join slice is the side of A's compute grid ring next to the matched edge. -/
theorem C63_edge_interpolation [FloatTotal F] (geod : Geod F) (aXG aYG bXG bYG : Mat F) (m : Matched F)
    (ha : aYG.rows = aXG.rows ∧ aYG.cols = aXG.cols) (hb : bYG.rows = bXG.rows ∧ bYG.cols = bXG.cols)
    (hfin : PyFloat.le PyFloat.inf (Spec.tolerance geod aXG aYG bXG bYG) = false)
    (h : matchedges geod aXG aYG bXG bYG = .ok m) (hf : Spec.Fits aXG bXG m.aEdge m.bEdge) :
    Spec.EdgeInterp geod aXG aYG bXG bYG m.aEdge m.bEdge m.edgeXg m.edgeYg ∧
    m.join = (match m.aEdge with
      | .E => Slice.row (-1) | .W => Slice.row 0 | .N => Slice.col (-1) | .S => Slice.col 0) := by
  obtain ⟨ta, tb⟩ := matchedges_tiles geod _ _ _ _ m ha hb h
  rcases matchedges_spec geod _ _ _ _ ta tb hfin with ⟨ae, be, h1, h2, _, e⟩ | ⟨_, e⟩
  · rw [e] at h
    cases hl : edgeLine geod aXG aYG bXG bYG ae be with
    | error e => rw [hl] at h; cases h
    | ok xy =>
      rw [hl] at h; cases h
      obtain ⟨x, y, hl', hi⟩ := edgeLine_spec geod aXG aYG bXG bYG ta tb ae be hf
      rw [hl] at hl'
      cases hl'
      refine ⟨hi, ?_⟩
      cases ae <;> rfl
  · rw [e] at h; cases h

/-- **C64**: only the corner points are compared.  Two pairs of tiles with the same corner points (and fitting sizes)
are both matched along the same edges or both rejected, however different their points between the corners are. -/
theorem C64_only_corners_compared [FloatTotal F] (geod : Geod F) (aXG aYG bXG bYG aXG' aYG' bXG' bYG' : Mat F)
    (ha : Spec.Tile2 aXG aYG) (hb : Spec.Tile2 bXG bYG) (ha' : Spec.Tile2 aXG' aYG') (hb' : Spec.Tile2 bXG' bYG')
    (hA : ∀ c, Spec.cornerPt aXG aYG c = Spec.cornerPt aXG' aYG' c)
    (hB : ∀ c, Spec.cornerPt bXG bYG c = Spec.cornerPt bXG' bYG' c)
    (hfin : PyFloat.le PyFloat.inf (Spec.tolerance geod aXG aYG bXG bYG) = false)
    (hf : ∀ ae be, Spec.Opposite (ae, be) → Spec.Fits aXG bXG ae be)
    (hf' : ∀ ae be, Spec.Opposite (ae, be) → Spec.Fits aXG' bXG' ae be) :
    (∃ m m', matchedges geod aXG aYG bXG bYG = .ok m ∧ matchedges geod aXG' aYG' bXG' bYG' = .ok m' ∧
      m.aEdge = m'.aEdge ∧ m.bEdge = m'.bEdge) ∨
    (matchedges geod aXG aYG bXG bYG = .error .valueError ∧
      matchedges geod aXG' aYG' bXG' bYG' = .error .valueError) := by
  have ht : Spec.tolerance geod aXG aYG bXG bYG = Spec.tolerance geod aXG' aYG' bXG' bYG' := by
    unfold Spec.tolerance; simp only [hA, hB]
  have nA : ∀ c, Spec.NearA geod aXG aYG bXG bYG c ↔ Spec.NearA geod aXG' aYG' bXG' bYG' c := by
    intro c; unfold Spec.NearA; simp only [hA, hB, ht]
  have nB : ∀ c, Spec.NearB geod aXG aYG bXG bYG c ↔ Spec.NearB geod aXG' aYG' bXG' bYG' c := by
    intro c; unfold Spec.NearB; simp only [hA, hB, ht]
  have hfin' := hfin
  rw [ht] at hfin'
  rcases matchedges_spec geod _ _ _ _ ha hb hfin with ⟨ae, be, h1, h2, h3, _⟩ | ⟨hno, e⟩
  · obtain ⟨m, hm, m1, m2⟩ := C41_accepts geod _ _ _ _ ae be ha hb hfin h1 h2 h3 (hf _ _ h3)
    obtain ⟨m', hm', m1', m2'⟩ := C41_accepts geod _ _ _ _ ae be ha' hb' hfin' ((FirstEdge_congr nA _).1 h1)
      ((FirstEdge_congr nB _).1 h2) h3 (hf' _ _ h3)
    exact Or.inl ⟨m, m', hm, hm', by rw [m1, m1'], by rw [m2, m2']⟩
  · right
    refine ⟨e, ?_⟩
    rcases matchedges_spec geod _ _ _ _ ha' hb' hfin' with ⟨ae, be, h1, h2, h3, _⟩ | ⟨_, e'⟩
    · exact absurd h3 (hno ae be ((FirstEdge_congr nA _).2 h1) ((FirstEdge_congr nB _).2 h2))
    · exact e'

/-! ## Concrete cases -/

/-- Corner points of a tile with `r` x `c` points starting at (x,y), spacing 10. -/
def exTileX (r c : Nat) (x : Int) : Mat Toy := ⟨r, c, fun i _ => .ofInt (x + 10 * i)⟩
def exTileY (r c : Nat) (y : Int) : Mat Toy := ⟨r, c, fun _ j => .ofInt (y + 10 * j)⟩

set_option maxRecDepth 20000 in
/-- A 2x1 tile and the 1x1 tile to its east (C40, C41, C63): E against W, and the interpolated line. -/
example : (matchedges Toy.geod (exTileX 3 2 0) (exTileY 3 2 0) (exTileX 2 2 20) (exTileY 2 2 0)).toOption.map
    (fun m => (m.aEdge, m.bEdge, (List.range m.edgeXg.len).map m.edgeXg.get, (List.range m.edgeYg.len).map m.edgeYg.get)) =
    some (.E, .W, [Toy.ofInt 25, .ofInt 25, .ofInt 25], [.ofInt 0, .ofInt 5, .ofInt 10]) := by decide

set_option maxRecDepth 20000 in
/-- A tile and its southern neighbour. -/
example : (matchedges Toy.geod (exTileX 3 2 0) (exTileY 3 2 0) (exTileX 3 3 0) (exTileY 3 3 (-20))).toOption.map
    (fun m => (m.aEdge, m.bEdge, m.join)) = some (.S, .N, Slice.col 0) := by decide

/-- The hypotheses of C41 and C63 for the first pair. -/
example : Spec.Tile2 (exTileX 3 2 0) (exTileY 3 2 0) ∧ Spec.Tile2 (exTileX 2 2 20) (exTileY 2 2 0) ∧
    Spec.Fits (exTileX 3 2 0) (exTileX 2 2 20) .E .W ∧ Spec.Opposite (.E, .W) ∧
    PyFloat.le PyFloat.inf (Spec.tolerance Toy.geod (exTileX 3 2 0) (exTileY 3 2 0) (exTileX 2 2 20) (exTileY 2 2 0)) =
      false :=
  ⟨by unfold Spec.Tile2; decide, by unfold Spec.Tile2; decide, ⟨by decide, by decide, by decide⟩, trivial, by decide⟩

example : Spec.FirstEdge (Spec.NearA Toy.geod (exTileX 3 2 0) (exTileY 3 2 0) (exTileX 2 2 20) (exTileY 2 2 0)) .E := by
  refine ⟨?_, ?_⟩
  · rintro ⟨a, b⟩ h
    cases a <;> cases b <;> first
      | exact absurd h (by decide) | exact ⟨(false, false), by decide⟩ | exact ⟨(false, true), by decide⟩
  · intro e' he hn
    cases e' <;> first | exact absurd he (by decide) | skip
    obtain ⟨⟨a, b⟩, h⟩ := hn (false, false) rfl
    revert h
    cases a <;> cases b <;> decide

set_option maxRecDepth 20000 in
/-- A tile and itself, and a tile and a coarser tile over the same rectangle (C42): rejected. -/
example : matchedges Toy.geod (exTileX 3 2 0) (exTileY 3 2 0) (exTileX 3 2 0) (exTileY 3 2 0) = .error .valueError :=
  C42_self Toy.geod _ _ (by unfold Spec.Tile2; decide) (by decide) (fun p q => by
    have c : ∀ x y : Toy, Toy.op (fun a b => ((a - b).natAbs : Int)) x y = Toy.op (fun a b => ((a - b).natAbs : Int)) y x := by
      intro x y
      have c1 : ((x.val - y.val).natAbs : Int) = (y.val - x.val).natAbs := by omega
      unfold Toy.op
      rw [Bool.or_comm]
      dsimp only
      rw [c1]
    unfold Spec.cdist Toy.geod
    dsimp only
    rw [c p.1, c p.2])

set_option maxRecDepth 20000 in
example : matchedges Toy.geod (exTileX 3 2 0) (exTileY 3 2 0)
    ⟨2, 2, fun i _ => .ofInt (20 * i)⟩ (exTileY 2 2 0) = .error .valueError :=
  C42_coinciding_corners Toy.geod _ _ _ _ (by unfold Spec.Tile2; decide) (by unfold Spec.Tile2; decide) (by decide)
    (by rintro ⟨a, b⟩; cases a <;> cases b <;> decide)
    (fun c => ⟨c, by obtain ⟨a, b⟩ := c; cases a <;> cases b <;> decide⟩)
    (fun c => ⟨c, by obtain ⟨a, b⟩ := c; cases a <;> cases b <;> decide⟩)

/-- C64: bending A's eastern edge between its corners changes no corner point, so the bent edge matches too. -/
def exBentX : Mat Toy := ⟨3, 3, fun i j => if i = 2 ∧ j = 1 then .ofInt 17 else .ofInt (10 * i)⟩

example : ∀ c, Spec.cornerPt (exTileX 3 3 0) (exTileY 3 3 0) c = Spec.cornerPt exBentX (exTileY 3 3 0) c := by
  rintro ⟨a, b⟩; cases a <;> cases b <;> decide

set_option maxRecDepth 20000 in
example : (matchedges Toy.geod exBentX (exTileY 3 3 0) (exTileX 3 3 20) (exTileY 3 3 0)).toOption.map
    (fun m => (m.aEdge, m.bEdge)) = some (.E, .W) := by decide

end SG
