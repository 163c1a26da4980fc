import Verif.Lemmas.SphereMesh
/-! # C103, C104: points and areas of a `regrid` grid (exact arithmetic, sphere)

The given points of the source grid are at the multiples of the subscales in `XG` and `YG` of the result (C32); the statements are about
them.  `Spec.meshPoint` says where the points between them are. -/

set_option linter.unusedSectionVars false
namespace SG
open Real

namespace Spec
/-- Mean length of the edges in x of a mesh of `M` by `N` cells on a sphere of radius `R`. -/
noncomputable def meanX (R : ℝ) (G : Nat → Nat → V3 ℝ) (M N : Nat) : ℝ :=
  (∑ a ∈ Finset.range M, ∑ b ∈ Finset.range (N + 1), R * arccos (inner3 (G a b) (G (a + 1) b))) / (M * (N + 1) : Nat)

/-- Mean length of the edges in y. -/
noncomputable def meanY (R : ℝ) (G : Nat → Nat → V3 ℝ) (M N : Nat) : ℝ :=
  (∑ a ∈ Finset.range (M + 1), ∑ b ∈ Finset.range N, R * arccos (inner3 (G a b) (G a (b + 1)))) / ((M + 1) * N : Nat)

/-- The given points of a `regrid` result. -/
noncomputable def givenPoint (XG YG : Mat ℝ) (ls lt x y : Nat) : V3 ℝ := point (XG.get (x * ls) (y * lt), YG.get (x * ls) (y * lt))
end Spec

/-! ## C103: positions -/

/-- The tile of a successful call. -/
theorem regrid_tile [F64 ℝ] (geod : Geod ℝ) (fs : Files ℝ) (fuel : Nat) (a : RegridArgs ℝ)
    (d : MatDict ℝ) (hsrc : readSource fs a = .ok d) (hw : d.xg.WF) (dict' : Option (MatDict ℝ)) (g : Grid ℝ) (ni nj : Int)
    (h : regrid geod fs fuel a = some (dict', .ok (g, ni, nj))) (XG YG : Mat ℝ) (hX : g .XG = .arr XG) (hY : g .YG = .arr YG)
    (p q ls lt : Nat) (hls : a.lonSub = ls) (hlt : a.latSub = lt) (hni : ni = ((p * ls : Nat) : Int)) (hnj : nj = ((q * lt : Nat) : Int)) :
    0 < p ∧ 0 < q ∧ 0 < ls ∧ 0 < lt ∧ ∃ (P : Nat → Nat → ℝ × ℝ),
      (∀ x y, x ≤ p → y ≤ q → Spec.point (P (x * (2 * ls)) (y * (2 * lt))) = Spec.givenPoint XG YG ls lt x y) ∧
      (∀ (R : ℝ), Spec.IsSphere R geod → Spec.SmallCells p q (Spec.givenPoint XG YG ls lt) → ∀ a b, a ≤ p * (2 * ls) → b ≤ q * (2 * lt) →
        Spec.point (P a b) = Spec.meshPoint (fun x y => Spec.point (P (x * (2 * ls)) (y * (2 * lt)))) ls lt a b) ∧
      ∀ f, ∃ M, g f = .arr M ∧ ∀ i j, i < Spec.nrows f (p * ls) → j < Spec.ncols f (q * lt) →
        M.get i j = (⟨p * ls, q * lt, fun a b => P a.toNat b.toNat⟩ : Spec.Tile ℝ).entry geod.inv
          (Spec.quad geod ((⟨p * ls, q * lt, fun a b => P a.toNat b.toNat⟩ : Spec.Tile ℝ).usePlanar geod.inv)) f i j := by
  obtain ⟨p', q', ls', lt', P, W, hp, hq, hls0, hlt0, els, elt, eni, enj, hx, hy, hv⟩ := regrid_mesh geod fs fuel a d hsrc hw dict' g ni nj h
  obtain rfl : ls' = ls := by omega
  obtain rfl : lt' = lt := by omega
  obtain rfl : p' = p := by
    have : p' * ls' = p * ls' := by omega
    exact Nat.eq_of_mul_eq_mul_right hls0 this
  obtain rfl : q' = q := by
    have : q' * lt' = q * lt' := by omega
    exact Nat.eq_of_mul_eq_mul_right hlt0 this
  have given : ∀ x y, x ≤ p' → y ≤ q' → Spec.point (P (x * (2 * ls')) (y * (2 * lt'))) = Spec.givenPoint XG YG ls' lt' x y := by
    intro x y hx' hy'
    have l1 : x * ls' ≤ p' * ls' := Nat.mul_le_mul_right _ hx'
    have l2 : y * lt' ≤ q' * lt' := Nat.mul_le_mul_right _ hy'
    obtain ⟨X, eX, vX⟩ := hv .XG
    obtain ⟨Y, eY, vY⟩ := hv .YG
    rw [hX] at eX; cases eX
    rw [hY] at eY; cases eY
    have h1 := vX (x * ls') (y * lt') (by simp only [Spec.nrows]; omega) (by simp only [Spec.ncols]; omega)
    have h2 := vY (x * ls') (y * lt') (by simp only [Spec.nrows]; omega) (by simp only [Spec.ncols]; omega)
    have e1 : Spec.halfI .XG (x * ls') = ((x * (2 * ls') : Nat) : Int) := by
      simp only [Spec.halfI, Spec.nrows]; rw [Nat.mul_left_comm]; simp
    have e2 : Spec.halfJ .XG (y * lt') = ((y * (2 * lt') : Nat) : Int) := by
      simp only [Spec.halfJ, Spec.ncols]; rw [Nat.mul_left_comm]; simp
    have e3 : Spec.halfI .YG (x * ls') = ((x * (2 * ls') : Nat) : Int) := by
      simp only [Spec.halfI, Spec.nrows]; rw [Nat.mul_left_comm]; simp
    have e4 : Spec.halfJ .YG (y * lt') = ((y * (2 * lt') : Nat) : Int) := by
      simp only [Spec.halfJ, Spec.ncols]; rw [Nat.mul_left_comm]; simp
    unfold Spec.Tile.entry at h1 h2
    simp only [Spec.kind, e1, e2, e3, e4, Int.toNat_natCast] at h1 h2
    unfold Spec.givenPoint
    rw [h1, h2]
  refine ⟨hp, hq, hls0, hlt0, P, given, fun R hg small a b ha hb => ?_, hv⟩
  refine mesh_positions R geod hg W p' q' ls' lt' hp hq hls0 hlt0 P hx hy ?_ a b ha hb
  intro x y hx' hy'
  obtain ⟨h, hh⟩ := small x y hx' hy'
  refine ⟨h, ?_⟩
  dsimp only
  rw [given x y (by omega) (by omega), given (x + 1) y (by omega) (by omega), given (x + 1) (y + 1) (by omega) (by omega),
    given x (y + 1) (by omega) (by omega)]
  exact hh

/-- `meshPoint` looks at the points of the mesh only. -/
theorem meshPoint_congr (p q ls lt : Nat) (hls : 0 < ls) (hlt : 0 < lt) (c c' : Nat → Nat → V3 ℝ) (h : ∀ x y, x ≤ p → y ≤ q → c x y = c' x y) (a b : Nat)
    (ha : a ≤ p * (2 * ls)) (hb : b ≤ q * (2 * lt)) : Spec.meshPoint c ls lt a b = Spec.meshPoint c' ls lt a b := by
  have cell : ∀ (p N a : Nat), 0 < N → a ≤ p * N → (a / N + 1 ≤ p) ∨ (a / N = p ∧ a % N = 0) := by
    intro p N a hN ha
    have dm := Nat.div_add_mod a N
    rw [Nat.mul_comm] at dm
    rcases Nat.lt_or_ge (a / N) p with l | l
    · exact .inl l
    · have := Nat.mul_le_mul_right N l
      rcases Nat.eq_or_lt_of_le l with e | e
      · exact .inr ⟨e.symm, by rw [e] at *; omega⟩
      · have := Nat.mul_le_mul_right N (Nat.succ_le_of_lt e)
        rw [Nat.succ_mul] at this
        omega
  unfold Spec.meshPoint
  dsimp only
  rcases cell p (2 * ls) a (by omega) ha with l | ⟨l, l'⟩
  · rcases cell q (2 * lt) b (by omega) hb with k | ⟨k, k'⟩
    · rw [h _ _ (by omega) (by omega), h _ _ (by omega) (by omega), h _ _ (by omega) (by omega), h _ _ (by omega) (by omega)]
    · rw [k', Nat.cast_zero, zero_div, between_zero, between_zero, h _ _ (by omega) (by omega), h _ _ (by omega) (by omega)]
  · rw [l', Nat.cast_zero, zero_div, between_zero, between_zero, between_zero, between_zero]
    rcases cell q (2 * lt) b (by omega) hb with k | ⟨k, k'⟩
    · rw [h _ _ (by omega) (by omega), h _ _ (by omega) (by omega)]
    · rw [k', Nat.cast_zero, zero_div, between_zero, between_zero, h _ _ (by omega) (by omega)]

/-- **C103**: on a sphere, if every cell of the source block is in some open hemisphere, the corners and centres of a successful `regrid` are on the
great circle arcs of `Spec.meshPoint`: within a source cell, corner `(i,j)` of the `ls` by `lt` new cells is at fraction `j/lt` of the arc that
joins the points at fraction `i/ls` of two opposite sides; centres are half way. -/
theorem C103_regrid_positions [F64 ℝ] (R : ℝ) (geod : Geod ℝ) (hg : Spec.IsSphere R geod) (fs : Files ℝ) (fuel : Nat) (a : RegridArgs ℝ)
    (d : MatDict ℝ) (hsrc : readSource fs a = .ok d) (hw : d.xg.WF) (dict' : Option (MatDict ℝ)) (g : Grid ℝ) (ni nj : Int)
    (h : regrid geod fs fuel a = some (dict', .ok (g, ni, nj))) (XG YG XC YC : Mat ℝ) (hX : g .XG = .arr XG) (hY : g .YG = .arr YG)
    (hXC : g .XC = .arr XC) (hYC : g .YC = .arr YC) (p q ls lt : Nat) (hls : a.lonSub = ls) (hlt : a.latSub = lt) (hni : ni = ((p * ls : Nat) : Int))
    (hnj : nj = ((q * lt : Nat) : Int)) (small : Spec.SmallCells p q (Spec.givenPoint XG YG ls lt)) :
    (∀ i j, i ≤ p * ls → j ≤ q * lt → Spec.point (XG.get i j, YG.get i j) = Spec.meshPoint (Spec.givenPoint XG YG ls lt) ls lt (2 * i) (2 * j)) ∧
    (∀ i j, i < p * ls → j < q * lt →
      Spec.point (XC.get i j, YC.get i j) = Spec.meshPoint (Spec.givenPoint XG YG ls lt) ls lt (2 * i + 1) (2 * j + 1)) := by
  obtain ⟨hp, hq, hls0, hlt0, P, given, pos, hv⟩ := regrid_tile geod fs fuel a d hsrc hw dict' g ni nj h XG YG hX hY p q ls lt hls hlt hni hnj
  have e1 : p * (2 * ls) = 2 * (p * ls) := Nat.mul_left_comm _ _ _
  have e2 : q * (2 * lt) = 2 * (q * lt) := Nat.mul_left_comm _ _ _
  have at_ : ∀ a b, a ≤ p * (2 * ls) → b ≤ q * (2 * lt) → Spec.point (P a b) = Spec.meshPoint (Spec.givenPoint XG YG ls lt) ls lt a b := by
    intro a b ha hb
    rw [pos R hg small a b ha hb]
    exact meshPoint_congr p q ls lt hls0 hlt0 _ _ given a b ha hb
  constructor
  · intro i j hi hj
    rw [← at_ (2 * i) (2 * j) (by omega) (by omega)]
    obtain ⟨X, eX, vX⟩ := hv .XG
    obtain ⟨Y, eY, vY⟩ := hv .YG
    rw [hX] at eX; cases eX
    rw [hY] at eY; cases eY
    have h1 := vX i j (by simp only [Spec.nrows]; omega) (by simp only [Spec.ncols]; omega)
    have h2 := vY i j (by simp only [Spec.nrows]; omega) (by simp only [Spec.ncols]; omega)
    have f1 : Spec.halfI .XG i = ((2 * i : Nat) : Int) := by simp only [Spec.halfI, Spec.nrows]; simp
    have f2 : Spec.halfJ .XG j = ((2 * j : Nat) : Int) := by simp only [Spec.halfJ, Spec.ncols]; simp
    have f3 : Spec.halfI .YG i = ((2 * i : Nat) : Int) := by simp only [Spec.halfI, Spec.nrows]; simp
    have f4 : Spec.halfJ .YG j = ((2 * j : Nat) : Int) := by simp only [Spec.halfJ, Spec.ncols]; simp
    unfold Spec.Tile.entry at h1 h2
    simp only [Spec.kind, f1, f2, f3, f4, Int.toNat_natCast] at h1 h2
    rw [h1, h2]
  · intro i j hi hj
    rw [← at_ (2 * i + 1) (2 * j + 1) (by omega) (by omega)]
    obtain ⟨X, eX, vX⟩ := hv .XC
    obtain ⟨Y, eY, vY⟩ := hv .YC
    rw [hXC] at eX; cases eX
    rw [hYC] at eY; cases eY
    have h1 := vX i j (by simp only [Spec.nrows]; omega) (by simp only [Spec.ncols]; omega)
    have h2 := vY i j (by simp only [Spec.nrows]; omega) (by simp only [Spec.ncols]; omega)
    have f1 : Spec.halfI .XC i = ((2 * i + 1 : Nat) : Int) := by simp only [Spec.halfI, Spec.nrows]; simp
    have f2 : Spec.halfJ .XC j = ((2 * j + 1 : Nat) : Int) := by simp only [Spec.halfJ, Spec.ncols]; simp
    have f3 : Spec.halfI .YC i = ((2 * i + 1 : Nat) : Int) := by simp only [Spec.halfI, Spec.nrows]; simp
    have f4 : Spec.halfJ .YC j = ((2 * j + 1 : Nat) : Int) := by simp only [Spec.halfJ, Spec.ncols]; simp
    unfold Spec.Tile.entry at h1 h2
    simp only [Spec.kind, f1, f2, f3, f4, Int.toNat_natCast] at h1 h2
    rw [h1, h2]

/-! ## C104: areas -/

/-- The rule of the area formula, for points no two neighbours of which coincide. -/
theorem tile_usePlanar (R : ℝ) (hR : 0 < R) (geod : Geod ℝ) (hg : Spec.IsSphere R geod) (m n : Nat) (P : Nat → Nat → ℝ × ℝ) (G : Nat → Nat → V3 ℝ)
    (hP : ∀ a b, a ≤ 2 * m → b ≤ 2 * n → Spec.point (P a b) = G a b)
    (hx : ∀ a b, a < 2 * m → b ≤ 2 * n → Spec.inner3 (G a b) (G (a + 1) b) < 1) (hy : ∀ a b, a ≤ 2 * m → b < 2 * n → Spec.inner3 (G a b) (G a (b + 1)) < 1) :
    (⟨m, n, fun a b => P a.toNat b.toNat⟩ : Spec.Tile ℝ).usePlanar geod.inv = true ↔
      Spec.meanX R G (2 * m) (2 * n) < 10000 ∧ Spec.meanY R G (2 * m) (2 * n) < 10000 := by
  have wpos : ∀ p q : V3 ℝ, Spec.inner3 p q < 1 → R * arccos (Spec.inner3 p q) ≠ 0 := by
    intro p q hlt
    have : 0 < arccos (Spec.inner3 p q) := arccos_pos.2 hlt
    positivity
  have ex : ∀ a b : Nat, a < 2 * m → b < 2 * n + 1 → (⟨m, n, fun a b => P a.toNat b.toNat⟩ : Spec.Tile ℝ).subX geod.inv (a : Int) (b : Int) =
      R * arccos (Spec.inner3 (G a b) (G (a + 1) b)) := by
    intro a b ha hb
    unfold Spec.Tile.subX
    dsimp only
    rw [if_pos (by omega), Int.toNat_natCast, Int.toNat_natCast, show ((a : Int) + 1).toNat = a + 1 by omega, ← hP a b (by omega) (by omega),
      ← hP (a + 1) b (by omega) (by omega)]
    exact hg.inv (P a b) (P (a + 1) b)
  have ey : ∀ a b : Nat, a < 2 * m + 1 → b < 2 * n → (⟨m, n, fun a b => P a.toNat b.toNat⟩ : Spec.Tile ℝ).subY geod.inv (a : Int) (b : Int) =
      R * arccos (Spec.inner3 (G a b) (G a (b + 1))) := by
    intro a b ha hb
    unfold Spec.Tile.subY
    dsimp only
    rw [if_pos (by omega), Int.toNat_natCast, Int.toNat_natCast, show ((b : Int) + 1).toNat = b + 1 by omega, ← hP a b (by omega) (by omega),
      ← hP a (b + 1) (by omega) (by omega)]
    exact hg.inv (P a b) (P a (b + 1))
  have mx := flat_mean (fun a b => (⟨m, n, fun a b => P a.toNat b.toNat⟩ : Spec.Tile ℝ).subX geod.inv (a : Int) (b : Int)) (2 * m) (2 * n + 1) (by
    intro a b ha hb
    rw [ex a b ha hb]
    exact wpos _ _ (hx a b ha (by omega)))
  have my := flat_mean (fun a b => (⟨m, n, fun a b => P a.toNat b.toNat⟩ : Spec.Tile ℝ).subY geod.inv (a : Int) (b : Int)) (2 * m + 1) (2 * n) (by
    intro a b ha hb
    rw [ey a b ha hb]
    exact wpos _ _ (hy a b (by omega) hb))
  have sx : (∑ a ∈ Finset.range (2 * m), ∑ b ∈ Finset.range (2 * n + 1), (⟨m, n, fun a b => P a.toNat b.toNat⟩ : Spec.Tile ℝ).subX geod.inv (a : Int) (b : Int)) /
      (2 * m * (2 * n + 1) : Nat) = Spec.meanX R G (2 * m) (2 * n) := by
    unfold Spec.meanX
    congr 1
    refine Finset.sum_congr rfl fun a ha => Finset.sum_congr rfl fun b hb => ?_
    rw [Finset.mem_range] at ha hb
    exact ex a b ha hb
  have sy : (∑ a ∈ Finset.range (2 * m + 1), ∑ b ∈ Finset.range (2 * n), (⟨m, n, fun a b => P a.toNat b.toNat⟩ : Spec.Tile ℝ).subY geod.inv (a : Int) (b : Int)) /
      ((2 * m + 1) * (2 * n) : Nat) = Spec.meanY R G (2 * m) (2 * n) := by
    unfold Spec.meanY
    congr 1
    refine Finset.sum_congr rfl fun a ha => Finset.sum_congr rfl fun b hb => ?_
    rw [Finset.mem_range] at ha hb
    exact ey a b ha hb
  rw [sx] at mx
  rw [sy] at my
  unfold Spec.Tile.usePlanar Spec.Tile.xLengths Spec.Tile.yLengths
  dsimp only
  rw [mx, my, Bool.and_eq_true]
  show decide (_ < (10000 : ℝ)) = true ∧ decide (_ < (10000 : ℝ)) = true ↔ _
  rw [decide_eq_true_iff, decide_eq_true_iff]

/-- Neighbours in a convex mesh do not coincide. -/
theorem mesh_distinct (p q ls lt : Nat) (hp : 0 < p) (hq : 0 < q) (hls : 0 < ls) (hlt : 0 < lt) (c : Nat → Nat → V3 ℝ) (hc : Spec.ConvexMesh p q c) :
    (∀ a b, a < p * (2 * ls) → b ≤ q * (2 * lt) → Spec.inner3 (Spec.meshPoint c ls lt a b) (Spec.meshPoint c ls lt (a + 1) b) < 1) ∧
    (∀ a b, a ≤ p * (2 * ls) → b < q * (2 * lt) → Spec.inner3 (Spec.meshPoint c ls lt a b) (Spec.meshPoint c ls lt a (b + 1)) < 1) := by
  have lo : ∀ (p N a : Nat), a < p * N → ∃ x i, x < p ∧ i < N ∧ a = x * N + i := by
    intro p N a h
    have hN : 0 < N := by
      rcases Nat.eq_zero_or_pos N with e | e
      · rw [e] at h; simp at h
      · exact e
    refine ⟨a / N, a % N, ?_, Nat.mod_lt _ hN, ?_⟩
    · exact Nat.div_lt_of_lt_mul (by rw [Nat.mul_comm]; exact h)
    · rw [Nat.mul_comm, Nat.div_add_mod]
  have hi : ∀ (p N a : Nat), 0 < p → a ≤ p * N → ∃ x i, x < p ∧ i ≤ N ∧ a = x * N + i := by
    intro p N a hp h
    rcases Nat.lt_or_ge a (p * N) with l | l
    · obtain ⟨x, i, h1, h2, h3⟩ := lo p N a l
      exact ⟨x, i, h1, h2.le, h3⟩
    · refine ⟨p - 1, N, by omega, le_refl _, ?_⟩
      have : a = p * N := by omega
      rw [this, ← Nat.succ_mul]
      congr 1
      omega
  have frac : ∀ (k N : Nat), k < N → ((k : ℝ) / N) < ((k + 1 : Nat) : ℝ) / N := by
    intro k N hk
    have : (0 : ℝ) < N := by
      have : 0 < N := by omega
      exact_mod_cast this
    apply div_lt_div_of_pos_right _ this
    push_cast; linarith
  constructor
  · intro a b ha hb
    obtain ⟨x, i, hx, hi', rfl⟩ := lo _ _ _ ha
    obtain ⟨y, j, hy, hj, rfl⟩ := hi _ _ _ hq hb
    obtain ⟨h, hpt⟩ := patch_of_convex (hc x y hx hy)
    rw [Nat.add_assoc, meshPoint_cell p q ls lt hls hlt c (convex_small hc) x y i j hx hy (by omega) hj,
      meshPoint_cell p q ls lt hls hlt c (convex_small hc) x y (i + 1) j hx hy (by omega) hj]
    exact patch_width hpt _ _ _ (nat_div_unit (by omega)).1 (frac i _ hi') (nat_div_unit (by omega)).2 (nat_div_unit hj).1 (nat_div_unit hj).2
  · intro a b ha hb
    obtain ⟨x, i, hx, hi', rfl⟩ := hi _ _ _ hp ha
    obtain ⟨y, j, hy, hj, rfl⟩ := lo _ _ _ hb
    obtain ⟨h, hpt⟩ := patch_of_convex (hc x y hx hy)
    rw [Nat.add_assoc, meshPoint_cell p q ls lt hls hlt c (convex_small hc) x y i j hx hy hi' (by omega),
      meshPoint_cell p q ls lt hls hlt c (convex_small hc) x y i (j + 1) hx hy hi' (by omega)]
    exact patch_height hpt _ _ _ (nat_div_unit hi').1 (nat_div_unit hi').2 (nat_div_unit (by omega)).1 (frac j _ hj) (nat_div_unit (by omega)).2

/-- **C104**: on a sphere, if every cell of the source block is convex (corners counterclockwise) and the new cells are large enough for the spherical
formula (mean length of the half-cell edges in x or in y at least 10 km), all cell areas RAC of a successful `regrid` are positive and those of
the `ls` by `lt` cells made from a source cell add up to the area of the source cell. -/
theorem C104_regrid_areas [F64 ℝ] (R : ℝ) (hR : 0 < R) (geod : Geod ℝ) (hg : Spec.IsSphere R geod) (fs : Files ℝ) (fuel : Nat) (a : RegridArgs ℝ)
    (d : MatDict ℝ) (hsrc : readSource fs a = .ok d) (hw : d.xg.WF) (dict' : Option (MatDict ℝ)) (g : Grid ℝ) (ni nj : Int)
    (h : regrid geod fs fuel a = some (dict', .ok (g, ni, nj))) (XG YG A : Mat ℝ) (hX : g .XG = .arr XG) (hY : g .YG = .arr YG)
    (hA : g .RAC = .arr A) (p q ls lt : Nat) (hls : a.lonSub = ls) (hlt : a.latSub = lt) (hni : ni = ((p * ls : Nat) : Int))
    (hnj : nj = ((q * lt : Nat) : Int)) (convex : Spec.ConvexMesh p q (Spec.givenPoint XG YG ls lt))
    (large : 10000 ≤ Spec.meanX R (Spec.meshPoint (Spec.givenPoint XG YG ls lt) ls lt) (2 * (p * ls)) (2 * (q * lt)) ∨
      10000 ≤ Spec.meanY R (Spec.meshPoint (Spec.givenPoint XG YG ls lt) ls lt) (2 * (p * ls)) (2 * (q * lt))) :
    (∀ i j, i < p * ls → j < q * lt → 0 < A.get i j) ∧
    ∀ x y, x < p → y < q → ∑ i ∈ Finset.range ls, ∑ j ∈ Finset.range lt, A.get (x * ls + i) (y * lt + j) =
      R ^ 2 * Spec.quadArea (Spec.givenPoint XG YG ls lt x y) (Spec.givenPoint XG YG ls lt (x + 1) y) (Spec.givenPoint XG YG ls lt (x + 1) (y + 1))
        (Spec.givenPoint XG YG ls lt x (y + 1)) := by
  obtain ⟨hp, hq, hls0, hlt0, P, given, pos, hv⟩ := regrid_tile geod fs fuel a d hsrc hw dict' g ni nj h XG YG hX hY p q ls lt hls hlt hni hnj
  have e1 : p * (2 * ls) = 2 * (p * ls) := Nat.mul_left_comm _ _ _
  have e2 : q * (2 * lt) = 2 * (q * lt) := Nat.mul_left_comm _ _ _
  have small := convex_small convex
  have at_ : ∀ a b, a ≤ 2 * (p * ls) → b ≤ 2 * (q * lt) → Spec.point (P a b) = Spec.meshPoint (Spec.givenPoint XG YG ls lt) ls lt a b := by
    intro a b ha hb
    rw [pos R hg small a b (by omega) (by omega)]
    exact meshPoint_congr p q ls lt hls0 hlt0 _ _ given a b (by omega) (by omega)
  generalize Spec.givenPoint XG YG ls lt = c at *
  obtain ⟨dx, dy⟩ := mesh_distinct p q ls lt hp hq hls0 hlt0 c convex
  have up : (⟨p * ls, q * lt, fun a b => P a.toNat b.toNat⟩ : Spec.Tile ℝ).usePlanar geod.inv = false := by
    rw [Bool.eq_false_iff]
    intro h
    obtain ⟨h1, h2⟩ := (tile_usePlanar R hR geod hg (p * ls) (q * lt) P (Spec.meshPoint c ls lt) at_ (fun a b ha hb => dx a b (by omega) (by omega))
      (fun a b ha hb => dy a b (by omega) (by omega))).1 h
    rcases large with l | l <;> linarith
  rw [up] at hv
  obtain ⟨A', hA', v⟩ := hv .RAC
  rw [hA] at hA'; cases hA'
  have R2 : 0 < R * R := by positivity
  have frac : ∀ (k N : Nat), 0 < N → ((k : ℝ) / N) < ((k + 1 : Nat) : ℝ) / N := by
    intro k N hN
    have : (0 : ℝ) < N := by exact_mod_cast hN
    apply div_lt_div_of_pos_right _ this
    push_cast; linarith
  have ne : ∀ N : Nat, 0 < N → (N : ℝ) ≠ 0 := fun N hN => by
    have : N ≠ 0 := by omega
    exact_mod_cast this
  -- quarter cells of a source cell
  have quarter : ∀ x y i j, x < p → y < q → i < 2 * ls → j < 2 * lt →
      (⟨p * ls, q * lt, fun a b => P a.toNat b.toNat⟩ : Spec.Tile ℝ).subA (Spec.quad geod false) ((x * (2 * ls) + i : Nat) : Int) ((y * (2 * lt) + j : Nat) : Int) =
      squadCell (patchPoint (c x y) (c (x + 1) y) (c (x + 1) (y + 1)) (c x (y + 1)) (i / (2 * ls : Nat)) (j / (2 * lt : Nat)))
        (patchPoint (c x y) (c (x + 1) y) (c (x + 1) (y + 1)) (c x (y + 1)) ((i + 1 : Nat) / (2 * ls : Nat)) (j / (2 * lt : Nat)))
        (patchPoint (c x y) (c (x + 1) y) (c (x + 1) (y + 1)) (c x (y + 1)) ((i + 1 : Nat) / (2 * ls : Nat)) ((j + 1 : Nat) / (2 * lt : Nat)))
        (patchPoint (c x y) (c (x + 1) y) (c (x + 1) (y + 1)) (c x (y + 1)) (i / (2 * ls : Nat)) ((j + 1 : Nat) / (2 * lt : Nat))) * (R * R) := by
    intro x y i j hx hy hi hj
    have l1 : (x + 1) * (2 * ls) ≤ p * (2 * ls) := Nat.mul_le_mul_right _ hx
    have l2 : (y + 1) * (2 * lt) ≤ q * (2 * lt) := Nat.mul_le_mul_right _ hy
    rw [Nat.succ_mul] at l1 l2
    unfold Spec.Tile.subA
    dsimp only
    rw [if_pos (by omega), quad_point R geod hg, if_neg Bool.false_ne_true, Int.toNat_natCast, Int.toNat_natCast,
      show (((x * (2 * ls) + i : Nat) : Int) + 1).toNat = x * (2 * ls) + (i + 1) by omega,
      show (((y * (2 * lt) + j : Nat) : Int) + 1).toNat = y * (2 * lt) + (j + 1) by omega, at_ _ _ (by omega) (by omega), at_ _ _ (by omega) (by omega),
      at_ _ _ (by omega) (by omega), at_ _ _ (by omega) (by omega), meshPoint_cell p q ls lt hls0 hlt0 c small x y i j hx hy (by omega) (by omega),
      meshPoint_cell p q ls lt hls0 hlt0 c small x y (i + 1) j hx hy (by omega) (by omega),
      meshPoint_cell p q ls lt hls0 hlt0 c small x y (i + 1) (j + 1) hx hy (by omega) (by omega),
      meshPoint_cell p q ls lt hls0 hlt0 c small x y i (j + 1) hx hy (by omega) (by omega)]
  have tot := fun x y (hx : x < p) (hy : y < q) =>
    patch_total (patch_of_convex (convex x y hx hy)).choose_spec (2 * ls) (2 * lt) (by omega) (by omega) (fun k => ((k : Nat) : ℝ) / (2 * ls : Nat)) (fun k => ((k : Nat) : ℝ) / (2 * lt : Nat))
      (by simp) (fun k _ => frac k (2 * ls) (by omega)) (by rw [div_self (ne _ (by omega))]) (by simp) (fun k _ => frac k (2 * lt) (by omega))
      (div_self (ne _ (by omega)))
  have qpos : ∀ x y i j, x < p → y < q → i < 2 * ls → j < 2 * lt →
      0 < (⟨p * ls, q * lt, fun a b => P a.toNat b.toNat⟩ : Spec.Tile ℝ).subA (Spec.quad geod false) ((x * (2 * ls) + i : Nat) : Int) ((y * (2 * lt) + j : Nat) : Int) := by
    intro x y i j hx hy hi hj
    rw [quarter x y i j hx hy hi hj]
    exact mul_pos ((tot x y hx hy).1 i j hi hj) R2
  have entry : ∀ x y i j, x < p → y < q → i < ls → j < lt → A.get (x * ls + i) (y * lt + j) =
      (⟨p * ls, q * lt, fun a b => P a.toNat b.toNat⟩ : Spec.Tile ℝ).subA (Spec.quad geod false) ((x * (2 * ls) + 2 * i : Nat) : Int) ((y * (2 * lt) + 2 * j : Nat) : Int) +
      (⟨p * ls, q * lt, fun a b => P a.toNat b.toNat⟩ : Spec.Tile ℝ).subA (Spec.quad geod false) ((x * (2 * ls) + (2 * i + 1) : Nat) : Int) ((y * (2 * lt) + 2 * j : Nat) : Int) +
      (⟨p * ls, q * lt, fun a b => P a.toNat b.toNat⟩ : Spec.Tile ℝ).subA (Spec.quad geod false) ((x * (2 * ls) + (2 * i + 1) : Nat) : Int) ((y * (2 * lt) + (2 * j + 1) : Nat) : Int) +
      (⟨p * ls, q * lt, fun a b => P a.toNat b.toNat⟩ : Spec.Tile ℝ).subA (Spec.quad geod false) ((x * (2 * ls) + 2 * i : Nat) : Int) ((y * (2 * lt) + (2 * j + 1) : Nat) : Int) := by
    intro x y i j hx hy hi hj
    have l1 : (x + 1) * ls ≤ p * ls := Nat.mul_le_mul_right _ hx
    have l2 : (y + 1) * lt ≤ q * lt := Nat.mul_le_mul_right _ hy
    rw [Nat.succ_mul] at l1 l2
    have m1 : x * (2 * ls) = 2 * (x * ls) := Nat.mul_left_comm _ _ _
    have m2 : y * (2 * lt) = 2 * (y * lt) := Nat.mul_left_comm _ _ _
    rw [v (x * ls + i) (y * lt + j) (by simp only [Spec.nrows]; omega) (by simp only [Spec.ncols]; omega)]
    have f1 : Spec.halfI .RAC (x * ls + i) = ((x * (2 * ls) + (2 * i + 1) : Nat) : Int) := by
      simp only [Spec.halfI, Spec.nrows]; rw [m1]; simp; omega
    have f2 : Spec.halfJ .RAC (y * lt + j) = ((y * (2 * lt) + (2 * j + 1) : Nat) : Int) := by
      simp only [Spec.halfJ, Spec.ncols]; rw [m2]; simp; omega
    unfold Spec.Tile.entry
    simp only [Spec.kind, f1, f2]
    rw [show ((x * (2 * ls) + (2 * i + 1) : Nat) : Int) - 1 = ((x * (2 * ls) + 2 * i : Nat) : Int) by omega,
      show ((y * (2 * lt) + (2 * j + 1) : Nat) : Int) - 1 = ((y * (2 * lt) + 2 * j : Nat) : Int) by omega]
    exact sumOrZero_pos4 (qpos x y _ _ hx hy (by omega) (by omega)) (qpos x y _ _ hx hy (by omega) (by omega)) (qpos x y _ _ hx hy (by omega) (by omega))
      (qpos x y _ _ hx hy (by omega) (by omega))
  refine ⟨fun i j hi hj => ?_, fun x y hx hy => ?_⟩
  · have ei : i = i / ls * ls + i % ls := by rw [Nat.mul_comm, Nat.div_add_mod]
    have ej : j = j / lt * lt + j % lt := by rw [Nat.mul_comm, Nat.div_add_mod]
    have hx : i / ls < p := Nat.div_lt_of_lt_mul (by rw [Nat.mul_comm]; exact hi)
    have hy : j / lt < q := Nat.div_lt_of_lt_mul (by rw [Nat.mul_comm]; exact hj)
    have mi := Nat.mod_lt i hls0
    have mj := Nat.mod_lt j hlt0
    rw [ei, ej, entry _ _ _ _ hx hy mi mj]
    have := qpos _ _ (2 * (i % ls)) (2 * (j % lt)) hx hy (by omega) (by omega)
    have := qpos _ _ (2 * (i % ls) + 1) (2 * (j % lt)) hx hy (by omega) (by omega)
    have := qpos _ _ (2 * (i % ls) + 1) (2 * (j % lt) + 1) hx hy (by omega) (by omega)
    have := qpos _ _ (2 * (i % ls)) (2 * (j % lt) + 1) hx hy (by omega) (by omega)
    linarith
  · have e : ∑ i ∈ Finset.range ls, ∑ j ∈ Finset.range lt, A.get (x * ls + i) (y * lt + j) =
        ∑ i ∈ Finset.range (2 * ls), ∑ j ∈ Finset.range (2 * lt),
          (⟨p * ls, q * lt, fun a b => P a.toNat b.toNat⟩ : Spec.Tile ℝ).subA (Spec.quad geod false) ((x * (2 * ls) + i : Nat) : Int) ((y * (2 * lt) + j : Nat) : Int) := by
      rw [← sum_quarters]
      refine Finset.sum_congr rfl fun i hi => Finset.sum_congr rfl fun j hj => ?_
      rw [Finset.mem_range] at hi hj
      exact entry x y i j hx hy hi hj
    rw [e]
    have e' : ∑ i ∈ Finset.range (2 * ls), ∑ j ∈ Finset.range (2 * lt),
          (⟨p * ls, q * lt, fun a b => P a.toNat b.toNat⟩ : Spec.Tile ℝ).subA (Spec.quad geod false) ((x * (2 * ls) + i : Nat) : Int) ((y * (2 * lt) + j : Nat) : Int) =
        (∑ i ∈ Finset.range (2 * ls), ∑ j ∈ Finset.range (2 * lt),
          squadCell (patchPoint (c x y) (c (x + 1) y) (c (x + 1) (y + 1)) (c x (y + 1)) (i / (2 * ls : Nat)) (j / (2 * lt : Nat)))
        (patchPoint (c x y) (c (x + 1) y) (c (x + 1) (y + 1)) (c x (y + 1)) ((i + 1 : Nat) / (2 * ls : Nat)) (j / (2 * lt : Nat)))
        (patchPoint (c x y) (c (x + 1) y) (c (x + 1) (y + 1)) (c x (y + 1)) ((i + 1 : Nat) / (2 * ls : Nat)) ((j + 1 : Nat) / (2 * lt : Nat)))
        (patchPoint (c x y) (c (x + 1) y) (c (x + 1) (y + 1)) (c x (y + 1)) (i / (2 * ls : Nat)) ((j + 1 : Nat) / (2 * lt : Nat)))) * (R * R) := by
      rw [Finset.sum_mul]
      refine Finset.sum_congr rfl fun i hi => ?_
      rw [Finset.sum_mul]
      refine Finset.sum_congr rfl fun j hj => ?_
      rw [Finset.mem_range] at hi hj
      exact quarter x y i j hx hy hi hj
    rw [e', (tot x y hx hy).2]
    have z : ((0 : Nat) : ℝ) / (2 * ls : Nat) = 0 := by simp
    rw [z, div_self (ne (2 * ls) (by omega)), between_zero, between_zero]
    obtain ⟨k, hpt⟩ := patch_of_convex (convex x y hx hy)
    rw [between_one hpt.sw.1 hpt.se.1 (hemi_lt_pi hpt.sw.1 hpt.se.1 hpt.sw.2 hpt.se.2),
      between_one hpt.nw.1 hpt.ne.1 (hemi_lt_pi hpt.nw.1 hpt.ne.1 hpt.nw.2 hpt.ne.2)]
    rw [C15_sum_of_excesses _ _ _ _ hpt.sw.1 hpt.se.1 hpt.ne.1 hpt.nw.1 (nonDeg_of_triple hpt.sw.1 hpt.se.1 hpt.ne.1 hpt.sw.2 hpt.se.2 hpt.ne.2 hpt.t1)
      (nonDeg_of_triple hpt.sw.1 hpt.ne.1 hpt.nw.1 hpt.sw.2 hpt.ne.2 hpt.nw.2 hpt.t3)]
    unfold Spec.quadArea
    ring

end SG
