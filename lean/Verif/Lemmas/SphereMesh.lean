import Verif.Props.SphereTotal
import Verif.Props.Regrid
/-! # Refined meshes on the sphere: where `regrid` puts points, and areas of refined cells -/

set_option linter.unusedSectionVars false
namespace SG
open Real

/-! ## What `tomitgrid` stores, as a function of half-cell indices -/

theorem tile_points {F : Type} [PyFloat F] [ZeroLaw F] (geod : Geod F) (s : Mat F × Mat F) (m n : Nat) (hr : Spec.Ringed s.1 s.2 m n) (g : Grid F)
    (hg : tomitgridRing geod s.1 s.2 m n = .ok g) (f : Field) : ∃ M, g f = .arr M ∧ ∀ i j, i < Spec.nrows f m → j < Spec.ncols f n →
      M.get i j = (⟨m, n, fun a b => Spec.at s (1 + a.toNat) (1 + b.toNat)⟩ : Spec.Tile F).entry geod.inv
        (Spec.quad geod ((⟨m, n, fun a b => Spec.at s (1 + a.toNat) (1 + b.toNat)⟩ : Spec.Tile F).usePlanar geod.inv)) f i j := by
  obtain ⟨g', hg', hv⟩ := tomitgrid_spec geod s.1 s.2 m n hr.1 hr.2 hr.3 hr.4
  change tomitgridRing geod s.1 s.2 m n = _ at hg'
  rw [hg] at hg'; cases hg'
  have pos : ∀ a b : Int, 0 ≤ a → 0 ≤ b → (Spec.tile s.1 s.2 m n).P a b = Spec.at s (1 + a.toNat) (1 + b.toNat) := by
    intro a b ha hb
    show (s.1.get (a + 1).toNat (b + 1).toNat, s.2.get (a + 1).toNat (b + 1).toNat) = _
    rw [show (a + 1).toNat = 1 + a.toNat by omega, show (b + 1).toNat = 1 + b.toNat by omega]
    rfl
  have tm : (Spec.tile s.1 s.2 m n).m = m := rfl
  have tn : (Spec.tile s.1 s.2 m n).n = n := rfl
  have sx : ∀ a b : Int, (Spec.tile s.1 s.2 m n).subX geod.inv a b =
      (⟨m, n, fun a b => Spec.at s (1 + a.toNat) (1 + b.toNat)⟩ : Spec.Tile F).subX geod.inv a b := by
    intro a b
    unfold Spec.Tile.subX
    rw [tm, tn]
    by_cases hh : 0 ≤ a ∧ a < 2 * (m : Int) ∧ 0 ≤ b ∧ b ≤ 2 * (n : Int)
    · rw [if_pos hh, if_pos hh, pos a b (by omega) (by omega), pos (a + 1) b (by omega) (by omega)]
    · rw [if_neg hh, if_neg hh]
  have sy : ∀ a b : Int, (Spec.tile s.1 s.2 m n).subY geod.inv a b =
      (⟨m, n, fun a b => Spec.at s (1 + a.toNat) (1 + b.toNat)⟩ : Spec.Tile F).subY geod.inv a b := by
    intro a b
    unfold Spec.Tile.subY
    rw [tm, tn]
    by_cases hh : 0 ≤ a ∧ a ≤ 2 * (m : Int) ∧ 0 ≤ b ∧ b < 2 * (n : Int)
    · rw [if_pos hh, if_pos hh, pos a b (by omega) (by omega), pos a (b + 1) (by omega) (by omega)]
    · rw [if_neg hh, if_neg hh]
  have eqp : (⟨m, n, fun a b => Spec.at s (1 + a.toNat) (1 + b.toNat)⟩ : Spec.Tile F).usePlanar geod.inv =
      (tileOf s.1 s.2 m n).usePlanar geod.inv := by
    show _ = (Spec.tile s.1 s.2 m n).usePlanar geod.inv
    unfold Spec.Tile.usePlanar Spec.Tile.xLengths Spec.Tile.yLengths
    rw [tm, tn]
    simp only [sx, sy]
  rw [eqp]
  obtain ⟨M, hM, v1, v2, v⟩ := hv f
  refine ⟨M, hM, fun i j hi hj => ?_⟩
  rw [v i j (by omega) (by omega)]
  generalize (tileOf s.1 s.2 m n).usePlanar geod.inv = planar
  show (Spec.tile s.1 s.2 m n).entry geod.inv (Spec.quad geod planar) f i j = _
  have sa : ∀ a b : Int, (Spec.tile s.1 s.2 m n).subA (Spec.quad geod planar) a b =
      (⟨m, n, fun a b => Spec.at s (1 + a.toNat) (1 + b.toNat)⟩ : Spec.Tile F).subA (Spec.quad geod planar) a b := by
    intro a b
    unfold Spec.Tile.subA
    rw [tm, tn]
    by_cases hh : 0 ≤ a ∧ a < 2 * (m : Int) ∧ 0 ≤ b ∧ b < 2 * (n : Int)
    · rw [if_pos hh, if_pos hh, pos a b (by omega) (by omega), pos (a + 1) b (by omega) (by omega),
        pos (a + 1) (b + 1) (by omega) (by omega), pos a (b + 1) (by omega) (by omega)]
    · rw [if_neg hh, if_neg hh]
  have ha : 0 ≤ Spec.halfI f i := by unfold Spec.halfI; split <;> omega
  have hb : 0 ≤ Spec.halfJ f j := by unfold Spec.halfJ; split <;> omega
  unfold Spec.Tile.entry
  dsimp only
  rw [pos _ _ ha hb, sx, sx, sy, sy, sa, sa, sa, sa]

/-- What a successful `regrid` stores, as a function of half-cell indices. -/
theorem regrid_mesh {F : Type} [PyFloat F] [F64 F] [ZeroLaw F] (geod : Geod F) (fs : Files F) (fuel : Nat) (a : RegridArgs F)
    (d : MatDict F) (hsrc : readSource fs a = .ok d) (hw : d.xg.WF) (dict' : Option (MatDict F)) (g : Grid F) (ni nj : Int)
    (h : regrid geod fs fuel a = some (dict', .ok (g, ni, nj))) :
    ∃ (p q ls lt : Nat) (P : Nat → Nat → F × F) (W : Mat F), 0 < p ∧ 0 < q ∧ 0 < ls ∧ 0 < lt ∧ a.lonSub = ls ∧ a.latSub = lt ∧
      ni = ((p * ls : Nat) : Int) ∧ nj = ((q * lt : Nat) : Int) ∧
      (∀ x y k, x < p → y ≤ q → k < 2 * ls - 1 →
        Spec.IsSub geod W (2 * ls - 1) k (P (x * (2 * ls)) (y * (2 * lt))) (P ((x + 1) * (2 * ls)) (y * (2 * lt))) (P (x * (2 * ls) + (k + 1)) (y * (2 * lt)))) ∧
      (∀ r y k, r ≤ p * (2 * ls) → y < q → k < 2 * lt - 1 →
        Spec.IsSub geod W (2 * lt - 1) k (P r (y * (2 * lt))) (P r ((y + 1) * (2 * lt))) (P r (y * (2 * lt) + (k + 1)))) ∧
      ∀ f, ∃ M, g f = .arr M ∧ ∀ i j, i < Spec.nrows f (p * ls) → j < Spec.ncols f (q * lt) →
        M.get i j = (⟨p * ls, q * lt, fun a b => P a.toNat b.toNat⟩ : Spec.Tile F).entry geod.inv
          (Spec.quad geod ((⟨p * ls, q * lt, fun a b => P a.toNat b.toNat⟩ : Spec.Tile F).usePlanar geod.inv)) f i j := by
  obtain ⟨k, c, c', -, i0, j0, p, q, ls, lt, ⟨-, hp, hq, hls0, hlt0, hls, hlt, -, -, hni, hnj⟩, s0, s, hwin, -, -, hf,
    hring, hg⟩ := regrid_built geod fs fuel a d hsrc hw dict' g ni nj h
  obtain ⟨s', hf', -, -, hnode⟩ := C17_fill_preserves geod _ _ _ _ _ _ _ _ hwin
  rw [hf] at hf'; cases hf'
  obtain ⟨s', hf', ex, ey⟩ := C18_fill_subdivides geod _ _ _ _ _ _ _ _ hwin
  rw [hf] at hf'; cases hf'
  refine ⟨p, q, ls, lt, fun a b => Spec.at s (1 + a) (1 + b), s0.1, hp, hq, hls0, hlt0, hls, hlt, hni, hnj,
    fun x y k hx hy hk => ?_, fun r y k hr hy hk => ?_, fun f => tile_points geod s _ _ hring g hg f⟩
  · have l1 : (x + 1) * (2 * ls) ≤ p * (2 * ls) := Nat.mul_le_mul_right _ hx
    have l2 : y * (2 * lt) ≤ q * (2 * lt) := Nat.mul_le_mul_right _ hy
    have := ex x y k (by omega) (by omega) hk
    rw [← hnode, ← hnode] at this
    rw [Nat.add_assoc] at this
    exact this
  · have l2 : (y + 1) * (2 * lt) ≤ q * (2 * lt) := Nat.mul_le_mul_right _ hy
    have := ey (1 + r) y k (by omega) (by omega) (by omega) hk
    rw [Nat.add_assoc 1 (y * (2 * lt)) (k + 1)] at this
    exact this

/-! ## Positions -/

namespace Spec
/-- The point `(a,b)`, counted in half cells, of a mesh with corners `c`, every cell of which is divided into `ls` by `lt` cells: in its cell, at
fraction `t` of the arc that joins the points at fraction `s` of two opposite sides. -/
noncomputable def meshPoint (c : Nat → Nat → V3 ℝ) (ls lt a b : Nat) : V3 ℝ :=
  let x := a / (2 * ls)
  let y := b / (2 * lt)
  let s : ℝ := (a % (2 * ls) : Nat) / (2 * ls : Nat)
  let t : ℝ := (b % (2 * lt) : Nat) / (2 * lt : Nat)
  between (between (c x y) (c (x + 1) y) s) (between (c x (y + 1)) (c (x + 1) (y + 1)) s) t

/-- Every cell of a mesh of `p` by `q` cells is in some open hemisphere. -/
def SmallCells (p q : Nat) (c : Nat → Nat → V3 ℝ) : Prop :=
  ∀ x y, x < p → y < q → ∃ h, InHemisphere h [c x y, c (x + 1) y, c (x + 1) (y + 1), c x (y + 1)]

/-- Every cell of a mesh of `p` by `q` cells is convex, corners counterclockwise. -/
def ConvexMesh (p q : Nat) (c : Nat → Nat → V3 ℝ) : Prop :=
  ∀ x y, x < p → y < q → ConvexQuad (c x y) (c (x + 1) y) (c (x + 1) (y + 1)) (c x (y + 1))
end Spec

/-- The point is where the mesh of given points says. -/
theorem mesh_positions (R : ℝ) (geod : Geod ℝ) (hg : Spec.IsSphere R geod) (W : Mat ℝ) (p q ls lt : Nat) (hp : 0 < p) (hq : 0 < q) (hls : 0 < ls) (hlt : 0 < lt)
    (P : Nat → Nat → ℝ × ℝ)
    (hx : ∀ x y k, x < p → y ≤ q → k < 2 * ls - 1 →
        Spec.IsSub geod W (2 * ls - 1) k (P (x * (2 * ls)) (y * (2 * lt))) (P ((x + 1) * (2 * ls)) (y * (2 * lt))) (P (x * (2 * ls) + (k + 1)) (y * (2 * lt))))
    (hy : ∀ r y k, r ≤ p * (2 * ls) → y < q → k < 2 * lt - 1 →
        Spec.IsSub geod W (2 * lt - 1) k (P r (y * (2 * lt))) (P r ((y + 1) * (2 * lt))) (P r (y * (2 * lt) + (k + 1))))
    (small : Spec.SmallCells p q fun x y => Spec.point (P (x * (2 * ls)) (y * (2 * lt)))) (a b : Nat) (ha : a ≤ p * (2 * ls)) (hb : b ≤ q * (2 * lt)) :
    Spec.point (P a b) = Spec.meshPoint (fun x y => Spec.point (P (x * (2 * ls)) (y * (2 * lt)))) ls lt a b := by
  have sub1 : ∀ N : Nat, 0 < N → ((N - 1 : Nat) : ℝ) + 1 = N := by
    intro N hN
    have : ((N - 1 + 1 : Nat) : ℝ) = N := by rw [show N - 1 + 1 = N by omega]
    rw [← this]; push_cast; ring
  -- corners of a cell, hemisphere
  have hemi : ∀ x y, x < p → y < q → ∃ h, ∀ x' y', (x' = x ∨ x' = x + 1) → (y' = y ∨ y' = y + 1) →
      0 < Spec.inner3 h (Spec.point (P (x' * (2 * ls)) (y' * (2 * lt)))) := by
    intro x y hx hy
    obtain ⟨h, -, hl⟩ := small x y hx hy
    refine ⟨h, ?_⟩
    rintro x' y' (rfl | rfl) (rfl | rfl) <;> exact (hl _ (by simp)).2
  -- rows through given points
  have row : ∀ a y, a ≤ p * (2 * ls) → y ≤ q → Spec.point (P a (y * (2 * lt))) =
      Spec.between (Spec.point (P (a / (2 * ls) * (2 * ls)) (y * (2 * lt)))) (Spec.point (P ((a / (2 * ls) + 1) * (2 * ls)) (y * (2 * lt))))
        ((a % (2 * ls) : Nat) / (2 * ls : Nat)) := by
    intro a y ha hy
    have dm := Nat.div_add_mod a (2 * ls)
    have ml := Nat.mod_lt a (show 2 * ls > 0 by omega)
    rw [Nat.mul_comm] at dm
    by_cases h0 : a % (2 * ls) = 0
    · rw [h0, Nat.cast_zero, zero_div, between_zero]
      congr 2
      omega
    · have xp : a / (2 * ls) < p := by
        by_contra hc
        have := Nat.mul_le_mul_right (2 * ls) (Nat.not_lt.1 hc)
        omega
      obtain ⟨h, hh⟩ := hemi (a / (2 * ls)) (min y (q - 1)) xp (by omega)
      have yc : y = min y (q - 1) ∨ y = min y (q - 1) + 1 := by omega
      have := (isSub_between R geod hg W (2 * ls - 1) (a % (2 * ls) - 1) (by omega) _ _ _
        (hemi_lt_pi (point_unit _) (point_unit _) (hh _ _ (.inl rfl) yc) (hh _ _ (.inr rfl) yc)) (hx (a / (2 * ls)) y (a % (2 * ls) - 1) xp hy (by omega))).1
      rw [show a % (2 * ls) - 1 + 1 = a % (2 * ls) by omega, dm, sub1 _ (by omega), sub1 _ (by omega)] at this
      exact this
  have dm := Nat.div_add_mod b (2 * lt)
  have ml := Nat.mod_lt b (show 2 * lt > 0 by omega)
  rw [Nat.mul_comm] at dm
  unfold Spec.meshPoint
  dsimp only
  by_cases h0 : b % (2 * lt) = 0
  · rw [h0, Nat.cast_zero, zero_div, between_zero, ← row a (b / (2 * lt)) ha]
    · congr 2
      omega
    · by_contra hc
      have := Nat.mul_le_mul_right (2 * lt) (Nat.succ_le_of_lt (Nat.not_le.1 hc))
      rw [Nat.succ_mul] at this
      omega
  · have yp : b / (2 * lt) < q := by
      by_contra hc
      have := Nat.mul_le_mul_right (2 * lt) (Nat.not_lt.1 hc)
      omega
    rw [← row a (b / (2 * lt)) ha (by omega), ← row a (b / (2 * lt) + 1) ha (by omega)]
    have ang : Spec.angle (P a (b / (2 * lt) * (2 * lt))) (P a ((b / (2 * lt) + 1) * (2 * lt))) < π := by
      have adm := Nat.div_add_mod a (2 * ls)
      have aml := Nat.mod_lt a (show 2 * ls > 0 by omega)
      rw [Nat.mul_comm] at adm
      have u := (nat_div_unit (le_of_lt aml) : (0 : ℝ) ≤ ((a % (2 * ls) : Nat) : ℝ) / (2 * ls : Nat) ∧ _)
      by_cases xp : a / (2 * ls) < p
      · obtain ⟨h, hh⟩ := hemi (a / (2 * ls)) (b / (2 * lt)) xp yp
        apply hemi_lt_pi (h := h) (point_unit _) (point_unit _)
        · rw [row a _ ha (by omega)]
          exact between_hemi (point_unit _) (point_unit _) (hh _ _ (.inl rfl) (.inl rfl)) (hh _ _ (.inr rfl) (.inl rfl)) u.1 u.2
        · rw [row a _ ha (by omega)]
          exact between_hemi (point_unit _) (point_unit _) (hh _ _ (.inl rfl) (.inr rfl)) (hh _ _ (.inr rfl) (.inr rfl)) u.1 u.2
      · have ea : a = p * (2 * ls) := by
          have := Nat.mul_le_mul_right (2 * ls) (Nat.not_lt.1 xp)
          omega
        obtain ⟨h, hh⟩ := hemi (p - 1) (b / (2 * lt)) (by omega) yp
        have e1 : p = p - 1 + 1 := by omega
        rw [ea]
        exact hemi_lt_pi (h := h) (point_unit _) (point_unit _) (hh p _ (.inr e1) (.inl rfl)) (hh p _ (.inr e1) (.inr rfl))
    have := (isSub_between R geod hg W (2 * lt - 1) (b % (2 * lt) - 1) (by omega) _ _ _ ang (hy a (b / (2 * lt)) (b % (2 * lt) - 1) ha yp (by omega))).1
    rw [show b % (2 * lt) - 1 + 1 = b % (2 * lt) by omega, dm, sub1 _ (by omega), sub1 _ (by omega)] at this
    exact this

/-- A point of a given cell. -/
theorem meshPoint_cell (p q ls lt : Nat) (hls : 0 < ls) (hlt : 0 < lt) (c : Nat → Nat → V3 ℝ) (small : Spec.SmallCells p q c) (x y i j : Nat)
    (hx : x < p) (hy : y < q) (hi : i ≤ 2 * ls) (hj : j ≤ 2 * lt) :
    Spec.meshPoint c ls lt (x * (2 * ls) + i) (y * (2 * lt) + j) =
      patchPoint (c x y) (c (x + 1) y) (c (x + 1) (y + 1)) (c x (y + 1)) (i / (2 * ls : Nat)) (j / (2 * lt : Nat)) := by
  obtain ⟨h, h0, hl⟩ := small x y hx hy
  obtain ⟨A, pA⟩ := hl (c x y) (by simp)
  obtain ⟨B, pB⟩ := hl (c (x + 1) y) (by simp)
  obtain ⟨C, pC⟩ := hl (c (x + 1) (y + 1)) (by simp)
  obtain ⟨D, pD⟩ := hl (c x (y + 1)) (by simp)
  have s2 : ((2 * ls : Nat) : ℝ) ≠ 0 := by
    have : 2 * ls ≠ 0 := by omega
    exact_mod_cast this
  have t2 : ((2 * lt : Nat) : ℝ) ≠ 0 := by
    have : 2 * lt ≠ 0 := by omega
    exact_mod_cast this
  have dv : ∀ (z k N : Nat), k < N → (z * N + k) / N = z ∧ (z * N + k) % N = k := by
    intro z k N hk
    constructor
    · rw [Nat.add_comm, Nat.add_mul_div_right _ _ (by omega), Nat.div_eq_of_lt hk, Nat.zero_add]
    · rw [Nat.add_comm, Nat.add_mul_mod_self_right, Nat.mod_eq_of_lt hk]
  have dn : ∀ (z N : Nat), 0 < N → (z * N + N) / N = z + 1 ∧ (z * N + N) % N = 0 := by
    intro z N hN
    rw [← Nat.succ_mul]
    exact ⟨Nat.mul_div_cancel _ hN, Nat.mul_mod_left _ _⟩
  have u := (nat_div_unit hi : (0 : ℝ) ≤ (i : ℝ) / (2 * ls : Nat) ∧ _)
  have S := between_unit A B ((i : ℝ) / (2 * ls : Nat))
  have N := between_unit D C ((i : ℝ) / (2 * ls : Nat))
  have Sp := between_hemi A B pA pB u.1 u.2
  have Np := between_hemi D C pD pC u.1 u.2
  unfold Spec.meshPoint patchPoint
  dsimp only
  have one : ∀ (k : Nat) (w : ℝ), w ≠ 0 → (k : ℝ) = w → (k : ℝ) / w = 1 := fun k w hw e => by rw [e, div_self hw]
  rcases Nat.lt_or_ge i (2 * ls) with li | li
  · rw [(dv x i _ li).1, (dv x i _ li).2]
    rcases Nat.lt_or_ge j (2 * lt) with lj | lj
    · rw [(dv y j _ lj).1, (dv y j _ lj).2]
    · obtain rfl : j = 2 * lt := by omega
      rw [(dn y _ (by omega)).1, (dn y _ (by omega)).2, Nat.cast_zero, zero_div, between_zero, div_self t2,
        between_one S N (hemi_lt_pi S N Sp Np)]
  · obtain rfl : i = 2 * ls := by omega
    rw [(dn x _ (by omega)).1, (dn x _ (by omega)).2, Nat.cast_zero, zero_div, between_zero, between_zero]
    rw [div_self s2, between_one A B (hemi_lt_pi A B pA pB), between_one D C (hemi_lt_pi D C pD pC)]
    rcases Nat.lt_or_ge j (2 * lt) with lj | lj
    · rw [(dv y j _ lj).1, (dv y j _ lj).2]
    · obtain rfl : j = 2 * lt := by omega
      rw [(dn y _ (by omega)).1, (dn y _ (by omega)).2, Nat.cast_zero, zero_div, between_zero, div_self t2,
        between_one B C (hemi_lt_pi B C pB pC)]

theorem convex_small {p q : Nat} {c : Nat → Nat → V3 ℝ} (h : Spec.ConvexMesh p q c) : Spec.SmallCells p q c := fun x y hx hy => (h x y hx hy).hemisphere

theorem patch_of_convex {A B C D : V3 ℝ} (hq : Spec.ConvexQuad A B C D) : ∃ h, Patch h A B C D := by
  obtain ⟨⟨h, h0, hl⟩, abc, bcd, cda, dab⟩ := hq
  refine ⟨h, h0, hl A (by simp), hl B (by simp), hl C (by simp), hl D (by simp), abc, ?_, ?_, bcd⟩
  · have := triple_rot D A B
    unfold Spec.LeftTurn at *; linarith
  · have := triple_rot A C D
    unfold Spec.LeftTurn at *; linarith

end SG
