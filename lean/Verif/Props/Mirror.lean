import Verif.Props.SphereMkRegrid
/-! # C125: `mkgrid` grids and their mirror images (exact arithmetic, sphere) -/

set_option linter.unusedSectionVars false
namespace SG
open Real

/-! ## Mirrors of the sphere -/

/-- Mirror in the meridian half way between two longitudes. -/
noncomputable def Spec.eastWest (lon1 lon2 : ℝ) (p : V3 ℝ) : V3 ℝ := Spec.spin (lon1 + lon2) ⟨p.x, -p.y, p.z⟩

/-- Mirror in the equator. -/
def Spec.northSouth (p : V3 ℝ) : V3 ℝ := ⟨p.x, p.y, -p.z⟩

theorem eastWest_inner (l1 l2 : ℝ) (p q : V3 ℝ) : Spec.inner3 (Spec.eastWest l1 l2 p) (Spec.eastWest l1 l2 q) = Spec.inner3 p q := by
  unfold Spec.eastWest
  rw [spin_inner]
  unfold Spec.inner3
  ring

theorem northSouth_inner (p q : V3 ℝ) : Spec.inner3 (Spec.northSouth p) (Spec.northSouth q) = Spec.inner3 p q := by
  unfold Spec.northSouth Spec.inner3
  ring

theorem eastWest_point (l1 l2 lon lat : ℝ) : Spec.eastWest l1 l2 (Spec.point (lon, lat)) = Spec.point (l1 + l2 - lon, lat) := by
  rw [show l1 + l2 - lon = -lon + (l1 + l2) by ring, ← spin_point]
  unfold Spec.eastWest
  congr 1
  have : Spec.rad (-lon) = -Spec.rad lon := by unfold Spec.rad; ring
  unfold Spec.point
  rw [this, cos_neg, sin_neg]
  apply V3.ext' <;> dsimp only
  ring

theorem northSouth_point (lon lat : ℝ) : Spec.northSouth (Spec.point (lon, lat)) = Spec.point (lon, -lat) := by
  have : Spec.rad (-lat) = -Spec.rad lat := by unfold Spec.rad; ring
  unfold Spec.northSouth Spec.point
  rw [this, cos_neg, sin_neg]

theorem eastWest_between (l1 l2 : ℝ) (p q : V3 ℝ) (t : ℝ) :
    Spec.eastWest l1 l2 (Spec.between p q t) = Spec.between (Spec.eastWest l1 l2 p) (Spec.eastWest l1 l2 q) t := by
  have e : ∀ p q : V3 ℝ, (⟨(Spec.between p q t).x, -(Spec.between p q t).y, (Spec.between p q t).z⟩ : V3 ℝ) =
      Spec.between ⟨p.x, -p.y, p.z⟩ ⟨q.x, -q.y, q.z⟩ t := by
    intro p q
    have : Spec.inner3 (⟨p.x, -p.y, p.z⟩ : V3 ℝ) ⟨q.x, -q.y, q.z⟩ = Spec.inner3 p q := by unfold Spec.inner3; ring
    unfold Spec.between
    rw [this]
    dsimp only
    split
    · rfl
    · apply V3.ext' <;> dsimp only <;> ring
  unfold Spec.eastWest
  rw [e, spin_between]

theorem northSouth_between (p q : V3 ℝ) (t : ℝ) : Spec.northSouth (Spec.between p q t) = Spec.between (Spec.northSouth p) (Spec.northSouth q) t := by
  unfold Spec.between
  rw [northSouth_inner]
  dsimp only
  split
  · rfl
  · unfold Spec.northSouth
    apply V3.ext' <;> dsimp only <;> ring

/-- An arc read backwards. -/
theorem between_swap {p q : V3 ℝ} (h1 : -1 < Spec.inner3 p q) (h2 : Spec.inner3 p q < 1) (t : ℝ) : Spec.between q p t = Spec.between p q (1 - t) := by
  have hw : sin (arccos (Spec.inner3 p q)) ≠ 0 := by
    rw [sin_arccos]
    exact ne_of_gt (sqrt_pos.2 (by nlinarith))
  unfold Spec.between
  rw [inner3_comm q p]
  dsimp only
  rw [if_neg hw, if_neg hw, show 1 - (1 - t) = t by ring]
  apply V3.ext' <;> dsimp only <;> ring

/-! ## Sums in another order -/

theorem sumOrZero_sum (l : List ℝ) : Spec.sumOrZero l = if 0 ∈ l then 0 else l.sum := by
  have fs : ∀ (l : List ℝ) (x : ℝ), l.foldl Arith.add x = x + l.sum := by
    intro l
    induction l with
    | nil => intro x; simp
    | cons y l ih => intro x; rw [List.foldl_cons, ih, List.sum_cons]; show x + y + _ = _; ring
  unfold Spec.sumOrZero
  have : (l.any PyFloat.isZero = true) ↔ 0 ∈ l := by
    rw [List.any_eq_true]
    constructor
    · rintro ⟨x, hx, hz⟩; rw [isZero_r] at hz; rwa [← hz]
    · intro h; exact ⟨0, h, (isZero_r _).2 rfl⟩
  by_cases h : (0 : ℝ) ∈ l
  · rw [if_pos (this.2 h), if_pos h]; rfl
  · rw [if_neg (fun c => h (this.1 c)), if_neg h]
    cases l with
    | nil => rfl
    | cons x l => dsimp only; rw [fs, List.sum_cons]

theorem sumOrZero_perm {l l' : List ℝ} (h : l.Perm l') : Spec.sumOrZero l = Spec.sumOrZero l' := by
  rw [sumOrZero_sum, sumOrZero_sum, h.sum_eq]
  simp only [h.mem_iff]

theorem mean_perm {l l' : List ℝ} (h : l.Perm l') : PyFloat.mean l = PyFloat.mean l' := by
  show l.sum / (l.length : ℝ) = l'.sum / (l'.length : ℝ)
  rw [h.sum_eq, h.length_eq]

theorem range_flip (N : Nat) (fl : Bool) : ((List.range N).map fun a => if fl then N - 1 - a else a).Perm (List.range N) := by
  cases fl with
  | false => simp
  | true =>
    have : ((List.range N).map fun a => if true = true then N - 1 - a else a) = (List.range N).reverse := by
      apply List.ext_getElem
      · simp
      · intro i h1 h2; simp
    rw [this]
    exact List.reverse_perm _

theorem flat_flip (f f' : Nat → Nat → ℝ) (M N : Nat) (fx fy : Bool)
    (h : ∀ a b, a < M → b < N → f' a b = f (if fx then M - 1 - a else a) (if fy then N - 1 - b else b)) :
    (((List.range M).flatMap fun a => (List.range N).map fun b => f' a b).filter fun x => !PyFloat.isZero x).Perm
    (((List.range M).flatMap fun a => (List.range N).map fun b => f a b).filter fun x => !PyFloat.isZero x) := by
  apply List.Perm.filter
  have e : ((List.range M).flatMap fun a => (List.range N).map fun b => f' a b) =
      ((List.range M).map fun a => if fx then M - 1 - a else a).flatMap fun a =>
        ((List.range N).map fun b => if fy then N - 1 - b else b).map fun b => f a b := by
    rw [List.flatMap_map]
    apply List.flatMap_congr
    intro a ha
    rw [List.map_map]
    apply List.map_congr_left
    intro b hb
    exact h a b (List.mem_range.1 ha) (List.mem_range.1 hb)
  rw [e]
  exact ((range_flip M fx).flatMap_right _).trans (List.Perm.flatMap_left _ fun a _ => (range_flip N fy).map _)

/-! ## Tiles -/

/-- Index `a` of `0..N`, counted from the other end if `fl`. -/
def flip (fl : Bool) (N a : Int) : Int := if fl then N - a else a

theorem convex_orders {A B C D : V3 ℝ} (hq : Spec.ConvexQuad A B C D) : squadCell B A D C = squadCell A B C D ∧ squadCell D C B A = squadCell A B C D := by
  obtain ⟨h, hh, hm⟩ := hq.hemisphere
  obtain ⟨a1, a2⟩ := hm A (by simp)
  obtain ⟨b1, b2⟩ := hm B (by simp)
  obtain ⟨c1, c2⟩ := hm C (by simp)
  obtain ⟨d1, d2⟩ := hm D (by simp)
  have nd : ∀ {a b c : V3 ℝ}, Spec.OnSphere a → Spec.OnSphere b → Spec.OnSphere c → 0 < Spec.inner3 h a → 0 < Spec.inner3 h b → 0 < Spec.inner3 h c →
      Spec.LeftTurn a b c → Spec.NonDeg a b c := fun h1 h2 h3 k1 k2 k3 t => nonDeg_of_triple h1 h2 h3 k1 k2 k3 t
  have t3 := hq.cda
  have t4 := hq.dab
  have t2 := hq.bcd
  have bda : Spec.LeftTurn B D A := by
    have := triple_rot D A B
    have := triple_rot A B D
    unfold Spec.LeftTurn at *; linarith
  have dbc : Spec.LeftTurn D B C := by
    have := triple_rot D B C
    unfold Spec.LeftTurn at *; linarith
  have q := (C99_any_diagonal A B C D hq).2
  obtain ⟨o1, o2⟩ := C15_order B C D A b1 c1 d1 a1 (nd b1 c1 d1 b2 c2 d2 t2) (nd b1 d1 a1 b2 d2 a2 bda)
  obtain ⟨-, o3⟩ := C15_order D A B C d1 a1 b1 c1 (nd d1 a1 b1 d2 a2 b2 t4) (nd d1 b1 c1 d2 b2 c2 dbc)
  exact ⟨o2.trans q, o3.trans (o1.trans q)⟩

/-- Two tiles whose points correspond by a map of the sphere that keeps angles, one of them counted from the other end in x, y or both. -/
theorem tile_mirror (R : ℝ) (geod : Geod ℝ) (hg : Spec.IsSphere R geod) (T : V3 ℝ → V3 ℝ)
    (hT : ∀ p q, Spec.inner3 (T p) (T q) = Spec.inner3 p q) (m n : Nat) (P P' : Nat → Nat → ℝ × ℝ) (fx fy : Bool) (one : fx = !fy)
    (h : ∀ a b, a ≤ 2 * m → b ≤ 2 * n →
      Spec.point (P' a b) = T (Spec.point (P (if fx then 2 * m - a else a) (if fy then 2 * n - b else b))))
    (conv : ∀ a b, a < 2 * m → b < 2 * n →
      Spec.ConvexQuad (Spec.point (P a b)) (Spec.point (P (a + 1) b)) (Spec.point (P (a + 1) (b + 1))) (Spec.point (P a (b + 1)))) :
    (∀ a b, (⟨m, n, fun a b => P' a.toNat b.toNat⟩ : Spec.Tile ℝ).subX geod.inv a b =
      (⟨m, n, fun a b => P a.toNat b.toNat⟩ : Spec.Tile ℝ).subX geod.inv (flip fx (2 * m - 1) a) (flip fy (2 * n) b)) ∧
    (∀ a b, (⟨m, n, fun a b => P' a.toNat b.toNat⟩ : Spec.Tile ℝ).subY geod.inv a b =
      (⟨m, n, fun a b => P a.toNat b.toNat⟩ : Spec.Tile ℝ).subY geod.inv (flip fx (2 * m) a) (flip fy (2 * n - 1) b)) ∧
    (∀ planar a b, (⟨m, n, fun a b => P' a.toNat b.toNat⟩ : Spec.Tile ℝ).subA (Spec.quad geod planar) a b =
      (⟨m, n, fun a b => P a.toNat b.toNat⟩ : Spec.Tile ℝ).subA (Spec.quad geod planar) (flip fx (2 * m - 1) a) (flip fy (2 * n - 1) b)) ∧
    (⟨m, n, fun a b => P' a.toNat b.toNat⟩ : Spec.Tile ℝ).usePlanar geod.inv = (⟨m, n, fun a b => P a.toNat b.toNat⟩ : Spec.Tile ℝ).usePlanar geod.inv := by
  have dist : ∀ p q p' q' : ℝ × ℝ, Spec.point p' = T (Spec.point p) → Spec.point q' = T (Spec.point q) →
      geod.inv p'.1 p'.2 q'.1 q'.2 = geod.inv p.1 p.2 q.1 q.2 := by
    intro p q p' q' e1 e2
    have d1 := hg.inv p' q'
    have d2 := hg.inv p q
    unfold Spec.distance Spec.angle at d1 d2
    rw [d1, d2, e1, e2, hT]
  have swap : ∀ p q : ℝ × ℝ, geod.inv p.1 p.2 q.1 q.2 = geod.inv q.1 q.2 p.1 p.2 := by
    intro p q
    have d1 := hg.inv p q
    have d2 := hg.inv q p
    unfold Spec.distance Spec.angle at d1 d2
    rw [d1, d2, inner3_comm]
  have h' : ∀ a b : Int, 0 ≤ a → a ≤ 2 * m → 0 ≤ b → b ≤ 2 * n →
      Spec.point (P' a.toNat b.toNat) = T (Spec.point (P (flip fx (2 * m) a).toNat (flip fy (2 * n) b).toNat)) := by
    intro a b a0 a1 b0 b1
    rw [h _ _ (by omega) (by omega)]
    congr 3
    · unfold flip; cases fx <;> simp <;> omega
    · unfold flip; cases fy <;> simp <;> omega
  have sx : ∀ a b, (⟨m, n, fun a b => P' a.toNat b.toNat⟩ : Spec.Tile ℝ).subX geod.inv a b =
      (⟨m, n, fun a b => P a.toNat b.toNat⟩ : Spec.Tile ℝ).subX geod.inv (flip fx (2 * m - 1) a) (flip fy (2 * n) b) := by
    intro a b
    unfold Spec.Tile.subX
    dsimp only
    by_cases hc : 0 ≤ a ∧ a < 2 * (m : Int) ∧ 0 ≤ b ∧ b ≤ 2 * (n : Int)
    · rw [if_pos hc, if_pos (by cases fx <;> cases fy <;> simp only [flip, if_true, if_false, Bool.false_eq_true] <;> omega)]
      rw [dist _ _ _ _ (h' a b (by omega) (by omega) (by omega) (by omega)) (h' (a + 1) b (by omega) (by omega) (by omega) (by omega))]
      cases fx
      · rfl
      · rw [swap]
        simp only [flip, if_true]
        rw [show 2 * (m : Int) - (a + 1) = 2 * m - 1 - a by ring, show 2 * (m : Int) - 1 - a + 1 = 2 * m - a by ring]
    · rw [if_neg hc, if_neg (by cases fx <;> cases fy <;> simp only [flip, if_true, if_false, Bool.false_eq_true] <;> omega)]
  have sy : ∀ a b, (⟨m, n, fun a b => P' a.toNat b.toNat⟩ : Spec.Tile ℝ).subY geod.inv a b =
      (⟨m, n, fun a b => P a.toNat b.toNat⟩ : Spec.Tile ℝ).subY geod.inv (flip fx (2 * m) a) (flip fy (2 * n - 1) b) := by
    intro a b
    unfold Spec.Tile.subY
    dsimp only
    by_cases hc : 0 ≤ a ∧ a ≤ 2 * (m : Int) ∧ 0 ≤ b ∧ b < 2 * (n : Int)
    · rw [if_pos hc, if_pos (by cases fx <;> cases fy <;> simp only [flip, if_true, if_false, Bool.false_eq_true] <;> omega)]
      rw [dist _ _ _ _ (h' a b (by omega) (by omega) (by omega) (by omega)) (h' a (b + 1) (by omega) (by omega) (by omega) (by omega))]
      cases fy
      · rfl
      · rw [swap]
        simp only [flip, if_true]
        rw [show 2 * (n : Int) - (b + 1) = 2 * n - 1 - b by ring, show 2 * (n : Int) - 1 - b + 1 = 2 * n - b by ring]
    · rw [if_neg hc, if_neg (by cases fx <;> cases fy <;> simp only [flip, if_true, if_false, Bool.false_eq_true] <;> omega)]
  refine ⟨sx, sy, fun planar a b => ?_, ?_⟩
  · unfold Spec.Tile.subA
    dsimp only
    by_cases hc : 0 ≤ a ∧ a < 2 * (m : Int) ∧ 0 ≤ b ∧ b < 2 * (n : Int)
    · rw [if_pos hc, if_pos (by cases fx <;> cases fy <;> simp only [flip, if_true, if_false, Bool.false_eq_true] <;> omega)]
      rw [quad_point R geod hg, quad_point R geod hg, h' a b (by omega) (by omega) (by omega) (by omega),
        h' (a + 1) b (by omega) (by omega) (by omega) (by omega), h' (a + 1) (b + 1) (by omega) (by omega) (by omega) (by omega),
        h' a (b + 1) (by omega) (by omega) (by omega) (by omega)]
      congr 1
      have move : ∀ A B C D : V3 ℝ, (if planar then pquadCell else squadCell) (T A) (T B) (T C) (T D) = (if planar then pquadCell else squadCell) A B C D := by
        intro A B C D
        cases planar
        · rw [if_neg Bool.false_ne_true, C15_rotation T hT]
        · rw [if_pos rfl, C14_rigid_motion T (fun p q => by rw [dist2_inner, dist2_inner, hT, hT, hT])]
      rw [move]
      cases fy
      · subst one
        simp only [flip, Bool.not_false, if_true, if_false, Bool.false_eq_true]
        have cv := conv (2 * (m : Int) - 1 - a).toNat b.toNat (by omega) (by omega)
        rw [show (2 * (m : Int) - a).toNat = (2 * (m : Int) - 1 - a).toNat + 1 by omega, show (2 * (m : Int) - (a + 1)).toNat = (2 * (m : Int) - 1 - a).toNat by omega,
          show (2 * (m : Int) - 1 - a + 1).toNat = (2 * (m : Int) - 1 - a).toNat + 1 by omega, show (b + 1).toNat = b.toNat + 1 by omega]
        cases planar
        · rw [if_neg Bool.false_ne_true]
          exact (convex_orders cv).1
        · rw [if_pos rfl]
          rw [(C14_nonneg_and_order _ _ _ _).2.2, (C14_nonneg_and_order _ _ _ _).2.1]
          exact (C14_nonneg_and_order _ _ _ _).2.1
      · subst one
        simp only [flip, Bool.not_true, if_true, if_false, Bool.false_eq_true]
        have cv := conv a.toNat (2 * (n : Int) - 1 - b).toNat (by omega) (by omega)
        rw [show (2 * (n : Int) - b).toNat = (2 * (n : Int) - 1 - b).toNat + 1 by omega, show (2 * (n : Int) - (b + 1)).toNat = (2 * (n : Int) - 1 - b).toNat by omega,
          show (2 * (n : Int) - 1 - b + 1).toNat = (2 * (n : Int) - 1 - b).toNat + 1 by omega, show (a + 1).toNat = a.toNat + 1 by omega]
        cases planar
        · rw [if_neg Bool.false_ne_true]
          exact (convex_orders cv).2
        · rw [if_pos rfl]
          exact (C14_nonneg_and_order _ _ _ _).2.2
    · rw [if_neg hc, if_neg (by cases fx <;> cases fy <;> simp only [flip, if_true, if_false, Bool.false_eq_true] <;> omega)]
  · unfold Spec.Tile.usePlanar Spec.Tile.xLengths Spec.Tile.yLengths
    dsimp only
    rw [mean_perm (flat_flip (fun a b => (⟨m, n, fun a b => P a.toNat b.toNat⟩ : Spec.Tile ℝ).subX geod.inv a b)
        (fun a b => (⟨m, n, fun a b => P' a.toNat b.toNat⟩ : Spec.Tile ℝ).subX geod.inv a b) (2 * m) (2 * n + 1) fx fy ?_),
      mean_perm (flat_flip (fun a b => (⟨m, n, fun a b => P a.toNat b.toNat⟩ : Spec.Tile ℝ).subY geod.inv a b)
        (fun a b => (⟨m, n, fun a b => P' a.toNat b.toNat⟩ : Spec.Tile ℝ).subY geod.inv a b) (2 * m + 1) (2 * n) fx fy ?_)]
    · intro a b ha hb
      show _ = _
      rw [sy]
      congr 1
      · unfold flip; cases fx <;> simp <;> omega
      · unfold flip; cases fy <;> simp <;> omega
    · intro a b ha hb
      show _ = _
      rw [sx]
      congr 1
      · unfold flip; cases fx <;> simp <;> omega
      · unfold flip; cases fy <;> simp <;> omega

/-- Entries of such tiles. -/
theorem entry_mirror (R : ℝ) (geod : Geod ℝ) (hg : Spec.IsSphere R geod) (T : V3 ℝ → V3 ℝ)
    (hT : ∀ p q, Spec.inner3 (T p) (T q) = Spec.inner3 p q) (m n : Nat) (P P' : Nat → Nat → ℝ × ℝ) (fx fy : Bool) (one : fx = !fy)
    (h : ∀ a b, a ≤ 2 * m → b ≤ 2 * n →
      Spec.point (P' a b) = T (Spec.point (P (if fx then 2 * m - a else a) (if fy then 2 * n - b else b))))
    (conv : ∀ a b, a < 2 * m → b < 2 * n →
      Spec.ConvexQuad (Spec.point (P a b)) (Spec.point (P (a + 1) b)) (Spec.point (P (a + 1) (b + 1))) (Spec.point (P a (b + 1))))
    (f : Field) (i j i' j' : Nat) (hi : Spec.halfI f i' = flip fx (2 * m) (Spec.halfI f i)) (hj : Spec.halfJ f j' = flip fy (2 * n) (Spec.halfJ f j))
    (hf : Spec.kind f ≠ .lon ∧ Spec.kind f ≠ .lat) :
    (⟨m, n, fun a b => P' a.toNat b.toNat⟩ : Spec.Tile ℝ).entry geod.inv
      (Spec.quad geod ((⟨m, n, fun a b => P' a.toNat b.toNat⟩ : Spec.Tile ℝ).usePlanar geod.inv)) f i j =
    (⟨m, n, fun a b => P a.toNat b.toNat⟩ : Spec.Tile ℝ).entry geod.inv
      (Spec.quad geod ((⟨m, n, fun a b => P a.toNat b.toNat⟩ : Spec.Tile ℝ).usePlanar geod.inv)) f i' j' := by
  obtain ⟨sx, sy, sa, up⟩ := tile_mirror R geod hg T hT m n P P' fx fy one h conv
  rw [up]
  unfold Spec.Tile.entry
  dsimp only
  rw [hi, hj]
  simp only [sx, sy, sa]
  generalize Spec.halfI f i = a
  generalize Spec.halfJ f j = b
  generalize (⟨m, n, fun a b => P a.toNat b.toNat⟩ : Spec.Tile ℝ) = t
  generalize Spec.quad geod (t.usePlanar geod.inv) = q
  have perm2 : ∀ x y : ℝ, Spec.sumOrZero [x, y] = Spec.sumOrZero [y, x] := fun x y => sumOrZero_perm (List.Perm.swap y x [])
  have px : ∀ x y z w : ℝ, Spec.sumOrZero [x, y, z, w] = Spec.sumOrZero [y, x, w, z] := fun x y z w =>
    sumOrZero_perm ((List.Perm.swap y x _).trans (((List.Perm.swap w z []).cons x).cons y))
  have py : ∀ x y z w : ℝ, Spec.sumOrZero [x, y, z, w] = Spec.sumOrZero [w, z, y, x] := fun x y z w =>
    sumOrZero_perm (List.reverse_perm [w, z, y, x])
  cases hk : Spec.kind f with
  | lon => exact absurd hk hf.1
  | lat => exact absurd hk hf.2
  | width =>
    cases fx
    · rfl
    · simp only [flip, if_true]
      rw [perm2]
      congr 3 <;> ring_nf
  | height =>
    cases fy
    · rfl
    · simp only [flip, if_true]
      rw [perm2]
      congr 3 <;> ring_nf
  | area =>
    cases fy
    · subst one
      simp only [flip, Bool.not_false, if_true, if_false, Bool.false_eq_true]
      rw [px]
      ring_nf
    · subst one
      simp only [flip, Bool.not_true, if_true, if_false, Bool.false_eq_true]
      rw [py]
      ring_nf

/-! ## The theorems -/

/-- Sides of a patch have different ends that are not antipodal. -/
theorem patch_ends {h SW SE NE NW : V3 ℝ} (hp : Patch h SW SE NE NW) : (-1 < Spec.inner3 SW SE ∧ Spec.inner3 SW SE < 1) ∧
    (-1 < Spec.inner3 NW NE ∧ Spec.inner3 NW NE < 1) ∧
    ∀ s, 0 ≤ s → s ≤ 1 → -1 < Spec.inner3 (Spec.between SW SE s) (Spec.between NW NE s) ∧
      Spec.inner3 (Spec.between SW SE s) (Spec.between NW NE s) < 1 := by
  refine ⟨⟨inner_gt_neg_one hp.sw.1 hp.se.1 hp.sw.2 hp.se.2, inner_lt_one_of_det _ _ _ hp.sw.1 hp.se.1 hp.ne.1 (ne_of_gt hp.t1)⟩,
    ⟨inner_gt_neg_one hp.nw.1 hp.ne.1 hp.nw.2 hp.ne.2, ?_⟩, fun s s0 s1 => ?_⟩
  · rw [inner3_comm]
    refine inner_lt_one_of_det _ _ SW hp.ne.1 hp.nw.1 hp.sw.1 ?_
    rw [triple_rot]
    exact ne_of_gt hp.t3
  · have a := patch_S hp s s0 s1
    have b := patch_N hp s s0 s1
    refine ⟨inner_gt_neg_one a.1 b.1 a.2 b.2, ?_⟩
    have := patch_height hp s 0 1 s0 s1 (le_refl _) (by norm_num) (le_refl _)
    unfold patchPoint at this
    rwa [between_zero, between_one a.1 b.1 (hemi_lt_pi a.1 b.1 a.2 b.2)] at this

/-- Cells of a box are convex. -/
theorem box_cells {lon1 lat1 lon2 lat2 : ℝ} (hb : Spec.NorthWestBox lon1 lat1 lon2 lat2) (m n : Nat) (hm : 1 ≤ m) (hn : 1 ≤ n)
    (P : Nat → Nat → ℝ × ℝ)
    (hP : ∀ a b, a ≤ 2 * m → b ≤ 2 * n → Spec.point (P a b) = Spec.boxPoint lon1 lat1 lon2 lat2 (a / (2 * m : Nat)) (b / (2 * n : Nat))) (a b : Nat)
    (ha : a < 2 * m) (hb' : b < 2 * n) :
    Spec.ConvexQuad (Spec.point (P a b)) (Spec.point (P (a + 1) b)) (Spec.point (P (a + 1) (b + 1))) (Spec.point (P a (b + 1))) := by
  obtain ⟨h, hp⟩ := box_patch hb
  have frac : ∀ (k N : Nat), 1 ≤ N → k < N → ((k : ℝ) / N) < ((k + 1 : Nat) : ℝ) / N := by
    intro k N hN hk
    have : (0 : ℝ) < N := by exact_mod_cast hN
    apply div_lt_div_of_pos_right _ this
    push_cast; linarith
  rw [hP a b (by omega) (by omega), hP (a + 1) b (by omega) (by omega), hP (a + 1) (b + 1) (by omega) (by omega), hP a (b + 1) (by omega) (by omega)]
  exact patch_cell_convex hp _ _ _ _ (nat_div_unit (by omega)).1 (frac a (2 * m) (by omega) ha) (nat_div_unit (by omega)).2 (nat_div_unit (by omega)).1
    (frac b (2 * n) (by omega) hb') (nat_div_unit (by omega)).2

theorem flip_frac {k N : Nat} (hN : 1 ≤ N) (hk : k ≤ N) : ((N - k : Nat) : ℝ) / N = 1 - (k : ℝ) / N := by
  have : (N : ℝ) ≠ 0 := by
    have : N ≠ 0 := by omega
    exact_mod_cast this
  rw [Nat.cast_sub hk]
  field_simp

theorem flip_halfI (f : Field) (m i : Nat) (hi : i < Spec.nrows f m) : Spec.halfI f (Spec.nrows f m - 1 - i) = 2 * m - Spec.halfI f i ∧
    (Spec.halfI f i).toNat ≤ 2 * m := by
  cases f <;> simp only [Spec.halfI, Spec.nrows] at hi ⊢ <;> simp <;> omega

theorem flip_halfJ (f : Field) (n j : Nat) (hj : j < Spec.ncols f n) : Spec.halfJ f (Spec.ncols f n - 1 - j) = 2 * n - Spec.halfJ f j ∧
    (Spec.halfJ f j).toNat ≤ 2 * n := by
  cases f <;> simp only [Spec.halfJ, Spec.ncols] at hj ⊢ <;> simp <;> omega

theorem half_nonneg (f : Field) (i : Nat) : 0 ≤ Spec.halfI f i ∧ 0 ≤ Spec.halfJ f i := by
  cases f <;> simp only [Spec.halfI, Spec.halfJ, Spec.nrows, Spec.ncols] <;> simp <;> omega

/-- **C125** (east and west): a grid `mkgrid` makes of a box is symmetric about the middle meridian of the box.  Every array other than the longitudes
is the same read from east to west as from west to east; two longitudes that correspond add up to the sum of those of the corners, up to whole turns. -/
theorem C125_east_west (R : ℝ) (geod : Geod ℝ) (hg : Spec.IsSphere R geod) (lon1 lat1 lon2 lat2 : ℝ) (m n : Nat) (hm : 1 ≤ m) (hn : 1 ≤ n)
    (hb : Spec.NorthWestBox lon1 lat1 lon2 lat2) : ∃ g : Grid ℝ,
      mkgrid geod lon1 lat1 lon2 lat2 (m : Int) (n : Int) = .ok (g, (m : Int), (n : Int)) ∧
      ∀ f, ∃ M, g f = .arr M ∧ ∀ i j, i < Spec.nrows f m → j < Spec.ncols f n →
        if f = .XC ∨ f = .XG then ∃ z : ℤ, M.get i j + M.get (Spec.nrows f m - 1 - i) j = lon1 + lon2 + 360 * z
        else M.get i j = M.get (Spec.nrows f m - 1 - i) j := by
  obtain ⟨P, g, eq, hP, hv⟩ := mkgrid_sphere R geod hg lon1 lat1 lon2 lat2 m n hm hn (box_of_northWest hb)
  obtain ⟨h, hp⟩ := box_patch hb
  obtain ⟨⟨s1, s2⟩, ⟨n1, n2⟩, -⟩ := patch_ends hp
  have hs : ∀ a b, a ≤ 2 * m → b ≤ 2 * n → Spec.point (P a b) = Spec.eastWest lon1 lon2 (Spec.point (P (2 * m - a) b)) := by
    intro a b ha hb
    rw [(hP a b ha hb).1, (hP (2 * m - a) b (by omega) hb).1, flip_frac (by omega) ha]
    unfold Spec.boxPoint
    rw [eastWest_between, eastWest_between, eastWest_between, eastWest_point, eastWest_point, eastWest_point, eastWest_point,
      show lon1 + lon2 - lon1 = lon2 by ring, show lon1 + lon2 - lon2 = lon1 by ring, ← between_swap, ← between_swap]
    · rwa [inner3_comm]
    · rwa [inner3_comm]
    · rwa [inner3_comm]
    · rwa [inner3_comm]
  refine ⟨g, eq, fun f => ?_⟩
  obtain ⟨M, hM, v⟩ := hv f
  refine ⟨M, hM, fun i j hi hj => ?_⟩
  have hi' : Spec.nrows f m - 1 - i < Spec.nrows f m := by omega
  obtain ⟨e1, e2⟩ := flip_halfI f m i hi
  have e3 := (flip_halfJ f n j hj).2
  have e4 := (half_nonneg f i).1
  rw [v i j hi hj, v _ j hi' hj]
  have place := hs _ _ e2 e3
  rw [show P (2 * m - (Spec.halfI f i).toNat) (Spec.halfJ f j).toNat = ((P (2 * m - (Spec.halfI f i).toNat) (Spec.halfJ f j).toNat).1,
    (P (2 * m - (Spec.halfI f i).toNat) (Spec.halfJ f j).toNat).2) from rfl, eastWest_point] at place
  obtain ⟨pl, z, pz⟩ := samePlace_of_point (lon := (P (Spec.halfI f i).toNat (Spec.halfJ f j).toNat).1) (lat := (P (Spec.halfI f i).toNat (Spec.halfJ f j).toNat).2)
    place (hP _ _ e2 e3).2 (hP _ _ (by omega) e3).2
  have e5 : (2 * (m : Int) - Spec.halfI f i).toNat = 2 * m - (Spec.halfI f i).toNat := by omega
  by_cases hk : Spec.kind f ≠ .lon ∧ Spec.kind f ≠ .lat
  · rw [if_neg (by rintro (rfl | rfl) <;> exact hk.1 rfl)]
    exact entry_mirror R geod hg (Spec.eastWest lon1 lon2) (eastWest_inner lon1 lon2) m n P P true false rfl
      (fun a b ha hb => by simpa using hs a b ha hb) (box_cells hb m n hm hn P fun a b ha hb => (hP a b ha hb).1) f i j _ j
      (by rw [e1]; rfl) rfl hk
  · unfold Spec.Tile.entry
    dsimp only
    rw [e1, e5]
    cases f <;> simp only [Spec.kind, reduceCtorEq, or_self, or_true, true_or, if_true, if_false, ne_eq, not_true_eq_false, not_false_eq_true, and_self,
      and_false, false_and] at hk ⊢
    · exact ⟨-z, by push_cast; linarith⟩
    · exact pl.symm
    · exact ⟨-z, by push_cast; linarith⟩
    · exact pl.symm

/-- **C125** (north and south): the box on the other side of the equator gives the same grid upside down.  Latitudes change their sign, longitudes are
the same up to whole turns, and all other arrays are the same, each read from north to south. -/
theorem C125_north_south (R : ℝ) (geod : Geod ℝ) (hg : Spec.IsSphere R geod) (lon1 lat1 lon2 lat2 : ℝ) (m n : Nat) (hm : 1 ≤ m) (hn : 1 ≤ n)
    (hb : Spec.NorthWestBox lon1 lat1 lon2 lat2) : ∃ g g' : Grid ℝ,
      mkgrid geod lon1 lat1 lon2 lat2 (m : Int) (n : Int) = .ok (g, (m : Int), (n : Int)) ∧
      mkgrid geod lon1 (-lat2) lon2 (-lat1) (m : Int) (n : Int) = .ok (g', (m : Int), (n : Int)) ∧
      ∀ f, ∃ M M', g f = .arr M ∧ g' f = .arr M' ∧ ∀ i j, i < Spec.nrows f m → j < Spec.ncols f n →
        if f = .XC ∨ f = .XG then ∃ z : ℤ, M'.get i j = M.get i (Spec.ncols f n - 1 - j) + 360 * z
        else if f = .YC ∨ f = .YG then M'.get i j = -M.get i (Spec.ncols f n - 1 - j)
        else M'.get i j = M.get i (Spec.ncols f n - 1 - j) := by
  have hb' : Spec.NorthWestBox lon1 (-lat2) lon2 (-lat1) :=
    ⟨by rw [abs_neg]; exact hb.south, by rw [abs_neg]; exact hb.north, by linarith [hb.up], hb.east⟩
  obtain ⟨P, g, eq, hP, hv⟩ := mkgrid_sphere R geod hg lon1 lat1 lon2 lat2 m n hm hn (box_of_northWest hb)
  obtain ⟨P', g', eq', hP', hv'⟩ := mkgrid_sphere R geod hg lon1 (-lat2) lon2 (-lat1) m n hm hn (box_of_northWest hb')
  obtain ⟨h, hp⟩ := box_patch hb
  obtain ⟨-, -, col⟩ := patch_ends hp
  have hs : ∀ a b, a ≤ 2 * m → b ≤ 2 * n → Spec.point (P' a b) = Spec.northSouth (Spec.point (P a (2 * n - b))) := by
    intro a b ha hb
    rw [(hP' a b ha hb).1, (hP a (2 * n - b) ha (by omega)).1, flip_frac (by omega) hb]
    obtain ⟨c1, c2⟩ := col ((a : ℝ) / (2 * m : Nat)) (nat_div_unit ha).1 (nat_div_unit ha).2
    unfold Spec.boxPoint
    rw [← between_swap c1 c2, northSouth_between, northSouth_between, northSouth_between, northSouth_point, northSouth_point, northSouth_point,
      northSouth_point]
  refine ⟨g, g', eq, eq', fun f => ?_⟩
  obtain ⟨M, hM, v⟩ := hv f
  obtain ⟨M', hM', v'⟩ := hv' f
  refine ⟨M, M', hM, hM', fun i j hi hj => ?_⟩
  have hj' : Spec.ncols f n - 1 - j < Spec.ncols f n := by omega
  obtain ⟨e1, e2⟩ := flip_halfJ f n j hj
  have e3 := (flip_halfI f m i hi).2
  have e4 := (half_nonneg f j).2
  rw [v i _ hi hj', v' i j hi hj]
  have place := hs _ _ e3 e2
  rw [show P (Spec.halfI f i).toNat (2 * n - (Spec.halfJ f j).toNat) = ((P (Spec.halfI f i).toNat (2 * n - (Spec.halfJ f j).toNat)).1,
    (P (Spec.halfI f i).toNat (2 * n - (Spec.halfJ f j).toNat)).2) from rfl, northSouth_point] at place
  obtain ⟨pl, z, pz⟩ := samePlace_of_point (lon' := (P' (Spec.halfI f i).toNat (Spec.halfJ f j).toNat).1)
    (lat' := (P' (Spec.halfI f i).toNat (Spec.halfJ f j).toNat).2) place.symm (by rw [abs_neg]; exact (hP _ _ e3 (by omega)).2) (hP' _ _ e3 e2).2
  have e5 : (2 * (n : Int) - Spec.halfJ f j).toNat = 2 * n - (Spec.halfJ f j).toNat := by omega
  by_cases hk : Spec.kind f ≠ .lon ∧ Spec.kind f ≠ .lat
  · rw [if_neg (by rintro (rfl | rfl) <;> exact hk.1 rfl), if_neg (by rintro (rfl | rfl) <;> exact hk.2 rfl)]
    exact entry_mirror R geod hg Spec.northSouth northSouth_inner m n P P' false true rfl
      (fun a b ha hb => by simpa using hs a b ha hb) (box_cells hb m n hm hn P fun a b ha hb => (hP a b ha hb).1) f i j i _
      rfl (by rw [e1]; rfl) hk
  · unfold Spec.Tile.entry
    dsimp only
    rw [e1, e5]
    cases f <;> simp only [Spec.kind, reduceCtorEq, or_self, or_true, true_or, if_true, if_false, ne_eq, not_true_eq_false, not_false_eq_true, and_self,
      and_false, false_and] at hk ⊢
    · exact ⟨z, pz⟩
    · exact pl
    · exact ⟨z, pz⟩
    · exact pl

/-- The north Atlantic box of C82, 3 by 2 cells: the western and the eastern cells have the same areas, and the points in the middle have longitude -40. -/
example : ∃ (geod : Geod ℝ) (g : Grid ℝ) (RAC XC : Mat ℝ) (z : ℤ), Spec.IsSphere 6370997 geod ∧ mkgrid geod (-60) 50 (-20) 30 (3 : Nat) (2 : Nat) = .ok (g, 3, 2) ∧
    g .RAC = .arr RAC ∧ g .XC = .arr XC ∧ RAC.get 0 1 = RAC.get 2 1 ∧ XC.get 1 0 = -40 + 180 * z := by
  obtain ⟨geod, hg⟩ := C80_sphere_exists 6370997
  obtain ⟨g, e, h⟩ := C125_east_west _ geod hg (-60) 50 (-20) 30 3 2 (by norm_num) (by norm_num)
    ⟨by rw [abs_lt]; norm_num, by rw [abs_lt]; norm_num, by norm_num, 0, by norm_num, by norm_num⟩
  obtain ⟨RAC, h1, v1⟩ := h .RAC
  obtain ⟨XC, h2, v2⟩ := h .XC
  have k1 := v1 0 1 (by decide) (by decide)
  have k2 := v2 1 0 (by decide) (by decide)
  rw [if_neg (by decide)] at k1
  rw [if_pos (by decide)] at k2
  obtain ⟨z, hz⟩ := k2
  refine ⟨geod, g, RAC, XC, z, hg, e, h1, h2, k1, ?_⟩
  simp only [Spec.nrows] at hz
  norm_num at hz
  linarith

/-- A box on both sides of the equator, 4 by 2 cells: cells on either side have the same areas, and the corners in the middle are on the equator. -/
example : ∃ (geod : Geod ℝ) (g : Grid ℝ) (RAC YG : Mat ℝ), Spec.IsSphere 6370997 geod ∧ mkgrid geod 160 30 (-160) (-30) (4 : Nat) (2 : Nat) = .ok (g, 4, 2) ∧
    g .RAC = .arr RAC ∧ g .YG = .arr YG ∧ RAC.get 3 0 = RAC.get 3 1 ∧ YG.get 1 1 = 0 := by
  obtain ⟨geod, hg⟩ := C80_sphere_exists 6370997
  obtain ⟨g, g', e, e', h⟩ := C125_north_south _ geod hg 160 30 (-160) (-30) 4 2 (by norm_num) (by norm_num)
    ⟨by rw [abs_lt]; norm_num, by rw [abs_lt]; norm_num, by norm_num, -1, by norm_num, by norm_num⟩
  rw [neg_neg, e] at e'
  cases e'
  obtain ⟨RAC, RAC', h1, h1', v1⟩ := h .RAC
  obtain ⟨YG, YG', h2, h2', v2⟩ := h .YG
  rw [h1] at h1'; cases h1'
  rw [h2] at h2'; cases h2'
  have k1 := v1 3 0 (by decide) (by decide)
  have k2 := v2 1 1 (by decide) (by decide)
  rw [if_neg (by decide), if_neg (by decide)] at k1
  rw [if_neg (by decide), if_pos (by decide)] at k2
  refine ⟨geod, g, RAC, YG, hg, e, h1, h2, k1, ?_⟩
  simp only [Spec.ncols] at k2
  norm_num at k2
  linarith

end SG
