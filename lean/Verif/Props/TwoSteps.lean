import Verif.Props.SphereMkRegrid
/-! # C133: refining in two steps (exact arithmetic, sphere)

`regrid` applied to the result of `regrid`, and `regrid` applied to a `mkgrid` grid, compared with a single call.  `regrid` and `mkgrid` divide first in x
and then in y, along great circles; so two steps give what one gives if the first does not divide in y, and only the same corners if the second does not
divide in x. -/

set_option linter.unusedSectionVars false
namespace SG
open Real

/-! ## Arcs of arcs -/

/-- A part of an arc, divided, is the arc divided. -/
theorem between_between {p q : V3 ℝ} (hp : Spec.OnSphere p) (hq : Spec.OnSphere q) (hw : arccos (Spec.inner3 p q) < π) {s s' : ℝ} (h0 : 0 ≤ s)
    (h1 : s < s') (h2 : s' ≤ 1) (t : ℝ) : Spec.between (Spec.between p q s) (Spec.between p q s') t = Spec.between p q (s + t * (s' - s)) := by
  have w0 := arccos_nonneg (Spec.inner3 p q)
  by_cases hs : sin (arccos (Spec.inner3 p q)) = 0
  · have e : ∀ r, Spec.between p q r = p := by
      intro r; unfold Spec.between; dsimp only; rw [if_pos hs]
    rw [e, e, e]
    have : Spec.inner3 p p = 1 := by
      unfold Spec.OnSphere Spec.inner3 at *; linarith
    unfold Spec.between
    dsimp only
    rw [this, arccos_one, sin_zero, if_pos rfl]
  · have wp : 0 < arccos (Spec.inner3 p q) := by
      rcases w0.lt_or_eq with h | h
      · exact h
      · exact absurd (by rw [← h, sin_zero]) hs
    have hi := between_inner hp hq hs s s'
    have d0 : 0 < (s' - s) * arccos (Spec.inner3 p q) := mul_pos (by linarith) wp
    have d1 : (s' - s) * arccos (Spec.inner3 p q) < π := by nlinarith
    have ha : arccos (Spec.inner3 (Spec.between p q s) (Spec.between p q s')) = (s' - s) * arccos (Spec.inner3 p q) := by
      rw [hi, arccos_cos d0.le d1.le]
    have hd : sin ((s' - s) * arccos (Spec.inner3 p q)) ≠ 0 := ne_of_gt (sin_pos_of_pos_of_lt_pi d0 d1)
    have e : ∀ (a b : V3 ℝ) (r v : ℝ), arccos (Spec.inner3 a b) = v → sin v ≠ 0 → Spec.between a b r =
        ⟨(sin ((1 - r) * v) * a.x + sin (r * v) * b.x) / sin v, (sin ((1 - r) * v) * a.y + sin (r * v) * b.y) / sin v,
          (sin ((1 - r) * v) * a.z + sin (r * v) * b.z) / sin v⟩ := by
      rintro a b r v rfl h
      unfold Spec.between; dsimp only; rw [if_neg h]
    rw [e _ _ t _ ha hd, e p q s _ rfl hs, e p q s' _ rfl hs, e p q (s + t * (s' - s)) _ rfl hs]
    generalize arccos (Spec.inner3 p q) = w at *
    dsimp only
    have k1 : sin ((1 - t) * ((s' - s) * w)) * sin ((1 - s) * w) + sin (t * ((s' - s) * w)) * sin ((1 - s') * w) =
        sin ((s' - s) * w) * sin ((1 - (s + t * (s' - s))) * w) := by
      rw [show (1 - t) * ((s' - s) * w) = (s' - s) * w - t * ((s' - s) * w) by ring, show (1 - s') * w = (1 - s) * w - (s' - s) * w by ring,
        show (1 - (s + t * (s' - s))) * w = (1 - s) * w - t * ((s' - s) * w) by ring]
      simp only [sin_sub]; ring
    have k2 : sin ((1 - t) * ((s' - s) * w)) * sin (s * w) + sin (t * ((s' - s) * w)) * sin (s' * w) =
        sin ((s' - s) * w) * sin ((s + t * (s' - s)) * w) := by
      rw [show (1 - t) * ((s' - s) * w) = (s' - s) * w - t * ((s' - s) * w) by ring, show s' * w = s * w + (s' - s) * w by ring,
        show (s + t * (s' - s)) * w = s * w + t * ((s' - s) * w) by ring]
      simp only [sin_sub, sin_add]; ring
    generalize sin ((1 - t) * ((s' - s) * w)) = a at *
    generalize sin (t * ((s' - s) * w)) = b at *
    generalize sin ((s' - s) * w) = D at *
    generalize sin ((1 - s) * w) = c at *
    generalize sin ((1 - s') * w) = c' at *
    generalize sin (s * w) = f at *
    generalize sin (s' * w) = f' at *
    generalize sin w = W at *
    have key : ∀ x y : ℝ, (a * ((c * x + f * y) / W) + b * ((c' * x + f' * y) / W)) / D =
        (sin ((1 - (s + t * (s' - s))) * w) * x + sin ((s + t * (s' - s)) * w) * y) / W := by
      intro x y
      field_simp
      linear_combination x * k1 + y * k2
    exact V3.ext' (key _ _) (key _ _) (key _ _)

/-! ## Meshes of meshes -/

/-- The corners of a refined mesh. -/
noncomputable def Spec.refinedMesh (c : Nat → Nat → V3 ℝ) (k l x y : Nat) : V3 ℝ := Spec.meshPoint c k l (2 * x) (2 * y)

/-- A number below `p·N`, in blocks of `N`. -/
theorem block_of {p N a : Nat} (hN : 0 < N) (hp : 0 < p) (ha : a ≤ p * N) : ∃ x i, x < p ∧ i ≤ N ∧ a = x * N + i := by
  rcases Nat.lt_or_ge (a / N) p with l | l
  · exact ⟨a / N, a % N, l, Nat.le_of_lt (Nat.mod_lt _ hN), by rw [Nat.mul_comm]; exact (Nat.div_add_mod a N).symm⟩
  · have h1 := Nat.div_add_mod a N
    have h2 := Nat.mul_le_mul_left N l
    rw [Nat.mul_comm p N] at ha
    refine ⟨p - 1, N, by omega, Nat.le_refl _, ?_⟩
    have : p = p - 1 + 1 := by omega
    rw [this, Nat.mul_succ] at ha h2
    rw [Nat.mul_comm (p - 1) N]
    omega

/-- ... with an `i` below `N` where possible. -/
theorem block_lt {p N a : Nat} (hN : 0 < N) (ha : a < p * N) : ∃ x i, x < p ∧ i < N ∧ a = x * N + i :=
  ⟨a / N, a % N, Nat.div_lt_of_lt_mul (by rw [Nat.mul_comm]; exact ha), Nat.mod_lt _ hN, by rw [Nat.mul_comm]; exact (Nat.div_add_mod a N).symm⟩

section
variable {p q : Nat} {c : Nat → Nat → V3 ℝ} (small : Spec.SmallCells p q c)
include small

theorem refined_cell (k l : Nat) (hk : 0 < k) (hl : 0 < l) (x y i j : Nat) (hx : x < p) (hy : y < q) (hi : i ≤ k) (hj : j ≤ l) :
    Spec.refinedMesh c k l (x * k + i) (y * l + j) = patchPoint (c x y) (c (x + 1) y) (c (x + 1) (y + 1)) (c x (y + 1)) (i / k) (j / l) := by
  unfold Spec.refinedMesh
  rw [show 2 * (x * k + i) = x * (2 * k) + 2 * i by rw [Nat.mul_add, Nat.mul_left_comm], show 2 * (y * l + j) = y * (2 * l) + 2 * j by
    rw [Nat.mul_add, Nat.mul_left_comm], meshPoint_cell p q k l hk hl c small x y (2 * i) (2 * j) hx hy (by omega) (by omega)]
  push_cast
  rw [mul_div_mul_left _ _ (two_ne_zero), mul_div_mul_left _ _ (two_ne_zero)]

/-- The cells of the refined mesh are in the same hemispheres. -/
theorem refined_small (k l : Nat) (hk : 0 < k) (hl : 0 < l) : Spec.SmallCells (p * k) (q * l) (Spec.refinedMesh c k l) := by
  intro X Y hX hY
  obtain ⟨x, i, hx, hi, rfl⟩ := block_lt hk hX
  obtain ⟨y, j, hy, hj, rfl⟩ := block_lt hl hY
  obtain ⟨h, h0, hc⟩ := small x y hx hy
  refine ⟨h, h0, ?_⟩
  obtain ⟨A, pA⟩ := hc (c x y) (by simp)
  obtain ⟨B, pB⟩ := hc (c (x + 1) y) (by simp)
  obtain ⟨C, pC⟩ := hc (c (x + 1) (y + 1)) (by simp)
  obtain ⟨D, pD⟩ := hc (c x (y + 1)) (by simp)
  have key : ∀ i' j', i' ≤ k → j' ≤ l → Spec.OnSphere (Spec.refinedMesh c k l (x * k + i') (y * l + j')) ∧
      0 < Spec.inner3 h (Spec.refinedMesh c k l (x * k + i') (y * l + j')) := by
    intro i' j' hi' hj'
    rw [refined_cell small k l hk hl x y i' j' hx hy hi' hj']
    have u := (nat_div_unit hi' : (0 : ℝ) ≤ (i' : ℝ) / k ∧ _)
    have v := (nat_div_unit hj' : (0 : ℝ) ≤ (j' : ℝ) / l ∧ _)
    have S := between_unit A B ((i' : ℝ) / k)
    have N := between_unit D C ((i' : ℝ) / k)
    exact ⟨between_unit S N _, between_hemi S N (between_hemi A B pA pB u.1 u.2) (between_hemi D C pD pC u.1 u.2) v.1 v.2⟩
  intro z hz
  simp only [List.mem_cons, List.not_mem_nil, or_false] at hz
  rcases hz with rfl | rfl | rfl | rfl
  · exact key i j (by omega) (by omega)
  · exact key (i + 1) j (by omega) (by omega)
  · exact key (i + 1) (j + 1) (by omega) (by omega)
  · exact key i (j + 1) (by omega) (by omega)

/-- First in x, then in both directions: all points are those of one refinement. -/
theorem mesh_x_first (k k' l : Nat) (hk : 0 < k) (hk' : 0 < k') (hl : 0 < l) (a b : Nat) (ha : a ≤ p * k * (2 * k')) (hb : b ≤ q * 1 * (2 * l))
    (hp : 0 < p) (hq : 0 < q) : Spec.meshPoint (Spec.refinedMesh c k 1) k' l a b = Spec.meshPoint c (k * k') (1 * l) a b := by
  obtain ⟨X, i', hX, hi', rfl⟩ := block_of (by omega) (Nat.mul_pos hp hk) ha
  obtain ⟨y, j', hy, hj', rfl⟩ := block_of (by omega) (by omega) hb
  obtain ⟨x, i, hx, hi, rfl⟩ := block_lt hk hX
  have hy' : y < q := by omega
  rw [meshPoint_cell _ _ k' l hk' hl _ (refined_small small k 1 hk (by omega)) _ _ _ _ hX hy hi' hj']
  have r : ∀ i0, i0 ≤ k → Spec.refinedMesh c k 1 (x * k + i0) y = Spec.between (c x y) (c (x + 1) y) (i0 / k) ∧
      Spec.refinedMesh c k 1 (x * k + i0) (y + 1) = Spec.between (c x (y + 1)) (c (x + 1) (y + 1)) (i0 / k) := by
    intro i0 h0
    obtain ⟨h, -, hc⟩ := small x y hx hy'
    obtain ⟨A, pA⟩ := hc (c x y) (by simp)
    obtain ⟨B, pB⟩ := hc (c (x + 1) y) (by simp)
    obtain ⟨C, pC⟩ := hc (c (x + 1) (y + 1)) (by simp)
    obtain ⟨D, pD⟩ := hc (c x (y + 1)) (by simp)
    have u := (nat_div_unit h0 : (0 : ℝ) ≤ (i0 : ℝ) / k ∧ _)
    have S := between_unit A B ((i0 : ℝ) / k)
    have N := between_unit D C ((i0 : ℝ) / k)
    have e0 := refined_cell small k 1 hk (by omega) x y i0 0 hx hy' h0 (by omega)
    have e1 := refined_cell small k 1 hk (by omega) x y i0 1 hx hy' h0 (by omega)
    rw [Nat.mul_one, Nat.add_zero] at e0
    rw [Nat.mul_one] at e1
    rw [e0, e1]
    unfold patchPoint
    rw [Nat.cast_zero, Nat.cast_one, zero_div, div_one, between_zero,
      between_one S N (hemi_lt_pi S N (between_hemi A B pA pB u.1 u.2) (between_hemi D C pD pC u.1 u.2))]
    exact ⟨rfl, rfl⟩
  rw [Nat.add_assoc, (r i (by omega)).1, (r (i + 1) (by omega)).1, (r i (by omega)).2, (r (i + 1) (by omega)).2]
  obtain ⟨h, -, hc⟩ := small x y hx hy'
  obtain ⟨A, pA⟩ := hc (c x y) (by simp)
  obtain ⟨B, pB⟩ := hc (c (x + 1) y) (by simp)
  obtain ⟨C, pC⟩ := hc (c (x + 1) (y + 1)) (by simp)
  obtain ⟨D, pD⟩ := hc (c x (y + 1)) (by simp)
  have k0 : (0 : ℝ) < k := by exact_mod_cast hk
  have u0 : (0 : ℝ) ≤ (i : ℝ) / k := by positivity
  have u1 : (i : ℝ) / k < ((i + 1 : Nat) : ℝ) / k := by push_cast; rw [div_lt_div_iff_of_pos_right k0]; linarith
  have u2 : ((i + 1 : Nat) : ℝ) / k ≤ 1 := (nat_div_unit (show i + 1 ≤ k by omega)).2
  unfold patchPoint
  rw [between_between A B (hemi_lt_pi A B pA pB) u0 u1 u2, between_between D C (hemi_lt_pi D C pD pC) u0 u1 u2]
  have hmul : i * (2 * k') + i' ≤ 2 * (k * k') := by
    have : (i + 1) * (2 * k') ≤ k * (2 * k') := Nat.mul_le_mul_right _ hi
    rw [Nat.mul_left_comm k 2 k'] at this
    rw [Nat.succ_mul] at this
    omega
  have e : (x * k + i) * (2 * k') + i' = x * (2 * (k * k')) + (i * (2 * k') + i') := by ring
  rw [e, show y * (2 * l) + j' = y * (2 * (1 * l)) + j' by rw [Nat.one_mul],
    meshPoint_cell p q (k * k') (1 * l) (Nat.mul_pos hk hk') (by omega) c small x y _ j' hx hy' hmul (by omega)]
  unfold patchPoint
  have k1 : (k' : ℝ) ≠ 0 := by
    have : k' ≠ 0 := by omega
    exact_mod_cast this
  have es : (i : ℝ) / k + (i' : ℝ) / (2 * k' : Nat) * (((i + 1 : Nat) : ℝ) / k - (i : ℝ) / k) = ((i * (2 * k') + i' : Nat) : ℝ) / (2 * (k * k') : Nat) := by
    push_cast; field_simp; ring
  rw [es, Nat.one_mul]

/-- First in both directions, then in y: points on the lines of the first refinement are those of one refinement. -/
theorem mesh_y_second (k l l' : Nat) (hk : 0 < k) (hl : 0 < l) (hl' : 0 < l') (X b : Nat) (ha : X ≤ p * k) (hb : b ≤ q * l * (2 * l'))
    (hp : 0 < p) (hq : 0 < q) : Spec.meshPoint (Spec.refinedMesh c k l) 1 l' (2 * X) b = Spec.meshPoint c (k * 1) (l * l') (2 * X) b := by
  obtain ⟨Y, j', hY, hj', rfl⟩ := block_of (by omega) (Nat.mul_pos hq hl) hb
  obtain ⟨y, j, hy, hj, rfl⟩ := block_lt hl hY
  obtain ⟨x, i, hx, hi, rfl⟩ := block_of hk hp ha
  -- the point of the refined mesh is on the line of corners
  obtain ⟨h, -, hc⟩ := small x y hx hy
  obtain ⟨A, pA⟩ := hc (c x y) (by simp)
  obtain ⟨B, pB⟩ := hc (c (x + 1) y) (by simp)
  obtain ⟨C, pC⟩ := hc (c (x + 1) (y + 1)) (by simp)
  obtain ⟨D, pD⟩ := hc (c x (y + 1)) (by simp)
  have line : Spec.meshPoint (Spec.refinedMesh c k l) 1 l' (2 * (x * k + i)) ((y * l + j) * (2 * l') + j') =
      Spec.between (Spec.refinedMesh c k l (x * k + i) (y * l + j)) (Spec.refinedMesh c k l (x * k + i) (y * l + (j + 1))) (j' / (2 * l' : Nat)) := by
    have r0 := refined_small small k l hk hl
    rcases Nat.lt_or_ge (x * k + i) (p * k) with lx | lx
    · have := meshPoint_cell _ _ 1 l' (by omega) hl' _ r0 (x * k + i) (y * l + j) 0 j' lx hY (by omega) hj'
      rw [show (x * k + i) * (2 * 1) + 0 = 2 * (x * k + i) by ring] at this
      rw [this]
      unfold patchPoint
      rw [Nat.cast_zero, zero_div, between_zero, between_zero, Nat.add_assoc]
    · have hpk : 0 < p * k := Nat.mul_pos hp hk
      have := meshPoint_cell _ _ 1 l' (by omega) hl' _ r0 (p * k - 1) (y * l + j) 2 j' (by omega) hY (by omega) hj'
      have e1 : p * k - 1 + 1 = x * k + i := by omega
      rw [show (p * k - 1) * (2 * 1) + 2 = 2 * (x * k + i) by omega, e1] at this
      rw [this]
      obtain ⟨h', -, hc'⟩ := r0 (p * k - 1) (y * l + j) (by omega) hY
      rw [e1] at hc'
      obtain ⟨A', pA'⟩ := hc' (Spec.refinedMesh c k l (p * k - 1) (y * l + j)) (by simp)
      obtain ⟨B', pB'⟩ := hc' (Spec.refinedMesh c k l (x * k + i) (y * l + j)) (by simp)
      obtain ⟨C', pC'⟩ := hc' (Spec.refinedMesh c k l (x * k + i) (y * l + j + 1)) (by simp)
      obtain ⟨D', pD'⟩ := hc' (Spec.refinedMesh c k l (p * k - 1) (y * l + j + 1)) (by simp)
      unfold patchPoint
      have one : ((2 : Nat) : ℝ) / ((2 * 1 : Nat) : ℝ) = 1 := by norm_num
      rw [one, between_one A' B' (hemi_lt_pi A' B' pA' pB'), between_one D' C' (hemi_lt_pi D' C' pD' pC'), Nat.add_assoc]
  have u := (nat_div_unit hi : (0 : ℝ) ≤ (i : ℝ) / k ∧ _)
  have S := between_unit A B ((i : ℝ) / k)
  have N := between_unit D C ((i : ℝ) / k)
  have hw := hemi_lt_pi S N (between_hemi A B pA pB u.1 u.2) (between_hemi D C pD pC u.1 u.2)
  have l0 : (0 : ℝ) < l := by exact_mod_cast hl
  have v0 : (0 : ℝ) ≤ (j : ℝ) / l := by positivity
  have v1 : (j : ℝ) / l < ((j + 1 : Nat) : ℝ) / l := by push_cast; rw [div_lt_div_iff_of_pos_right l0]; linarith
  have v2 : ((j + 1 : Nat) : ℝ) / l ≤ 1 := (nat_div_unit (show j + 1 ≤ l by omega)).2
  rw [line, refined_cell small k l hk hl x y i j hx hy hi (by omega), refined_cell small k l hk hl x y i (j + 1) hx hy hi (by omega)]
  unfold patchPoint
  rw [between_between S N hw v0 v1 v2]
  have hmul : j * (2 * l') + j' ≤ 2 * (l * l') := by
    have : (j + 1) * (2 * l') ≤ l * (2 * l') := Nat.mul_le_mul_right _ hj
    rw [Nat.mul_left_comm l 2 l', Nat.succ_mul] at this
    omega
  rw [show 2 * (x * k + i) = x * (2 * (k * 1)) + 2 * i by ring, show (y * l + j) * (2 * l') + j' = y * (2 * (l * l')) + (j * (2 * l') + j') by ring,
    meshPoint_cell p q (k * 1) (l * l') (by omega) (Nat.mul_pos hl hl') c small x y _ _ hx hy (by omega) hmul]
  unfold patchPoint
  have l1 : (l' : ℝ) ≠ 0 := by
    have : l' ≠ 0 := by omega
    exact_mod_cast this
  have es : (j : ℝ) / l + (j' : ℝ) / (2 * l' : Nat) * (((j + 1 : Nat) : ℝ) / l - (j : ℝ) / l) = ((j * (2 * l') + j' : Nat) : ℝ) / (2 * (l * l') : Nat) := by
    push_cast; field_simp; ring
  have ei : ((2 * i : Nat) : ℝ) / (2 * (k * 1) : Nat) = (i : ℝ) / k := by push_cast; rw [mul_one, mul_div_mul_left _ _ two_ne_zero]
  rw [es, ei]
end

/-! ## Grids of points -/

namespace Spec
/-- Same corner points on the sphere. -/
def SameCornerPoints (g g' : Grid ℝ) (m n : Nat) : Prop :=
  ∃ X Y X' Y', g .XG = .arr X ∧ g .YG = .arr Y ∧ g' .XG = .arr X' ∧ g' .YG = .arr Y' ∧
    ∀ i j, i ≤ m → j ≤ n → point (X'.get i j, Y'.get i j) = point (X.get i j, Y.get i j)

/-- Same points on the sphere, and the same lengths and areas. -/
structure SameOnSphere (g g' : Grid ℝ) (m n : Nat) : Prop where
  corners : SameCornerPoints g g' m n
  centres : ∃ X Y X' Y', g .XC = .arr X ∧ g .YC = .arr Y ∧ g' .XC = .arr X' ∧ g' .YC = .arr Y' ∧
    ∀ i j, i < m → j < n → point (X'.get i j, Y'.get i j) = point (X.get i j, Y.get i j)
  metric : ∀ f, f ∉ [Field.XC, .YC, .XG, .YG] → ∃ M M', g f = .arr M ∧ g' f = .arr M' ∧
    ∀ i j, i < nrows f m → j < ncols f n → M'.get i j = M.get i j
end Spec

/-- The entries of a grid are computed from its points. -/
def OfPoints (geod : Geod ℝ) (g : Grid ℝ) (m n : Nat) (P : Nat → Nat → ℝ × ℝ) : Prop :=
  ∀ f, ∃ M, g f = .arr M ∧ ∀ i j, i < Spec.nrows f m → j < Spec.ncols f n →
    M.get i j = (⟨m, n, fun a b => P a.toNat b.toNat⟩ : Spec.Tile ℝ).entry geod.inv
      (Spec.quad geod ((⟨m, n, fun a b => P a.toNat b.toNat⟩ : Spec.Tile ℝ).usePlanar geod.inv)) f i j

theorem ofPoints_corner {geod : Geod ℝ} {g : Grid ℝ} {m n : Nat} {P : Nat → Nat → ℝ × ℝ} (h : OfPoints geod g m n P) :
    ∃ X Y, g .XG = .arr X ∧ g .YG = .arr Y ∧ ∀ i j, i ≤ m → j ≤ n → (X.get i j, Y.get i j) = P (2 * i) (2 * j) := by
  obtain ⟨X, eX, vX⟩ := h .XG
  obtain ⟨Y, eY, vY⟩ := h .YG
  refine ⟨X, Y, eX, eY, fun i j hi hj => ?_⟩
  have h1 := vX i j (by simp only [Spec.nrows]; omega) (by simp only [Spec.ncols]; omega)
  have h2 := vY i j (by simp only [Spec.nrows]; omega) (by simp only [Spec.ncols]; omega)
  have f1 : Spec.halfI .XG i = ((2 * i : Nat) : Int) := by simp only [Spec.halfI, Spec.nrows]; simp
  have f2 : Spec.halfJ .XG j = ((2 * j : Nat) : Int) := by simp only [Spec.halfJ, Spec.ncols]; simp
  have f3 : Spec.halfI .YG i = ((2 * i : Nat) : Int) := by simp only [Spec.halfI, Spec.nrows]; simp
  have f4 : Spec.halfJ .YG j = ((2 * j : Nat) : Int) := by simp only [Spec.halfJ, Spec.ncols]; simp
  unfold Spec.Tile.entry at h1 h2
  simp only [Spec.kind, f1, f2, f3, f4, Int.toNat_natCast] at h1 h2
  rw [h1, h2]

theorem ofPoints_centre {geod : Geod ℝ} {g : Grid ℝ} {m n : Nat} {P : Nat → Nat → ℝ × ℝ} (h : OfPoints geod g m n P) :
    ∃ X Y, g .XC = .arr X ∧ g .YC = .arr Y ∧ ∀ i j, i < m → j < n → (X.get i j, Y.get i j) = P (2 * i + 1) (2 * j + 1) := by
  obtain ⟨X, eX, vX⟩ := h .XC
  obtain ⟨Y, eY, vY⟩ := h .YC
  refine ⟨X, Y, eX, eY, fun i j hi hj => ?_⟩
  have h1 := vX i j (by simp only [Spec.nrows]; omega) (by simp only [Spec.ncols]; omega)
  have h2 := vY i j (by simp only [Spec.nrows]; omega) (by simp only [Spec.ncols]; omega)
  have f1 : Spec.halfI .XC i = ((2 * i + 1 : Nat) : Int) := by simp only [Spec.halfI, Spec.nrows]; simp
  have f2 : Spec.halfJ .XC j = ((2 * j + 1 : Nat) : Int) := by simp only [Spec.halfJ, Spec.ncols]; simp
  have f3 : Spec.halfI .YC i = ((2 * i + 1 : Nat) : Int) := by simp only [Spec.halfI, Spec.nrows]; simp
  have f4 : Spec.halfJ .YC j = ((2 * j + 1 : Nat) : Int) := by simp only [Spec.halfJ, Spec.ncols]; simp
  unfold Spec.Tile.entry at h1 h2
  simp only [Spec.kind, f1, f2, f3, f4, Int.toNat_natCast] at h1 h2
  rw [h1, h2]

/-- Grids of the same corner points. -/
theorem sameCornerPoints_of_points {geod geod' : Geod ℝ} {g g' : Grid ℝ} {m n : Nat} {P P' : Nat → Nat → ℝ × ℝ} (h : OfPoints geod g m n P)
    (h' : OfPoints geod' g' m n P') (e : ∀ i j, i ≤ m → j ≤ n → Spec.point (P' (2 * i) (2 * j)) = Spec.point (P (2 * i) (2 * j))) :
    Spec.SameCornerPoints g g' m n := by
  obtain ⟨X, Y, eX, eY, v⟩ := ofPoints_corner h
  obtain ⟨X', Y', eX', eY', v'⟩ := ofPoints_corner h'
  refine ⟨X, Y, X', Y', eX, eY, eX', eY', fun i j hi hj => ?_⟩
  rw [v i j hi hj, v' i j hi hj, e i j hi hj]

/-- Grids of the same points. -/
theorem same_of_points (R : ℝ) (geod : Geod ℝ) (hg : Spec.IsSphere R geod) {g g' : Grid ℝ} {m n : Nat} {P P' : Nat → Nat → ℝ × ℝ}
    (h : OfPoints geod g m n P) (h' : OfPoints geod g' m n P')
    (e : ∀ a b, a ≤ 2 * m → b ≤ 2 * n → Spec.point (P' a b) = Spec.point (P a b)) : Spec.SameOnSphere g g' m n := by
  refine ⟨sameCornerPoints_of_points h h' fun i j hi hj => e _ _ (by omega) (by omega), ?_, fun f hf => ?_⟩
  · obtain ⟨X, Y, eX, eY, v⟩ := ofPoints_centre h
    obtain ⟨X', Y', eX', eY', v'⟩ := ofPoints_centre h'
    refine ⟨X, Y, X', Y', eX, eY, eX', eY', fun i j hi hj => ?_⟩
    rw [v i j hi hj, v' i j hi hj, e _ _ (by omega) (by omega)]
  · obtain ⟨sx, sy, sa, up⟩ := tile_congr R geod hg id (fun _ _ => rfl) m n P P' e
    obtain ⟨M, hM, v⟩ := h f
    obtain ⟨M', hM', v'⟩ := h' f
    refine ⟨M, M', hM, hM', fun i j hi hj => ?_⟩
    rw [v i j hi hj, v' i j hi hj, up]
    unfold Spec.Tile.entry
    dsimp only
    simp only [sx, sy, sa]
    cases f <;> simp only [Spec.kind] <;> exact absurd (by simp) hf

/-- The block `regrid` refines does not depend on the subscales. -/
theorem regrid_rescaled {F : Type} [PyFloat F] [F64 F] [ZeroLaw F] (geod : Geod F) (fs : Files F) (fuel : Nat) (hf : 4 ≤ fuel) (a : RegridArgs F)
    (d : MatDict F) (hsrc : readSource fs a = .ok d) (hw : d.xg.WF) (dict' : Option (MatDict F)) (g : Grid F) (ni nj : Int)
    (h : regrid geod fs fuel a = some (dict', .ok (g, ni, nj))) (XG YG : Mat F) (hX : g .XG = .arr XG) (hY : g .YG = .arr YG)
    (p q ls lt : Nat) (hls : a.lonSub = ls) (hlt : a.latSub = lt) (hni : ni = ((p * ls : Nat) : Int)) (hnj : nj = ((q * lt : Nat) : Int))
    (ls' lt' : Nat) (ls0 : 0 < ls') (lt0 : 0 < lt') : ∃ dict'' g' XG' YG',
      regrid geod fs fuel { a with lonSub := ls', latSub := lt' } = some (dict'', .ok (g', ((p * ls' : Nat) : Int), ((q * lt' : Nat) : Int))) ∧
      g' .XG = .arr XG' ∧ g' .YG = .arr YG' ∧
      ∀ x y, x ≤ p → y ≤ q → XG'.get (x * ls') (y * lt') = XG.get (x * ls) (y * lt) ∧ YG'.get (x * ls') (y * lt') = YG.get (x * ls) (y * lt) := by
  obtain ⟨k, c, c', -, hl, hdg, hal, -, -, i0, j0, p1, q1, ls1, lt1, hc', hp, hq, hls0, hlt0, els, elt, -, -, eni, enj, -, X, Y, eX, eY, hv⟩ :=
    regrid_success geod fs fuel a d hsrc hw dict' g ni nj h
  obtain rfl : ls1 = ls := by omega
  obtain rfl : lt1 = lt := by omega
  obtain rfl : p1 = p := by
    have : p1 * ls1 = p * ls1 := by omega
    exact Nat.eq_of_mul_eq_mul_right hls0 this
  obtain rfl : q1 = q := by
    have : q1 * lt1 = q * lt1 := by omega
    exact Nat.eq_of_mul_eq_mul_right hlt0 this
  rw [hX] at eX; cases eX
  rw [hY] at eY; cases eY
  obtain ⟨⟨i1, j1⟩, ⟨i2, j2⟩⟩ := c
  obtain ⟨d1, d2, n1, n2⟩ := nearest_of_locate geod _ _ _ _ _ _ _ _ _ hl
  have r1 := hdg.nw
  have r2 := hdg.se
  have e1 := hdg.hi
  have e2 := hdg.hj
  unfold InRange at r1 r2
  dsimp only at r1 r2 e1 e2 n1 n2
  have hsrc' : readSource fs { a with lonSub := (ls' : Int), latSub := (lt' : Int) } = .ok d := hsrc
  obtain ⟨dict'', g', ni', nj', h'⟩ := C34_regrid_succeeds geod fs { a with lonSub := (ls' : Int), latSub := (lt' : Int) } d hsrc' hw
    i1.toNat j1.toNat i2.toNat j2.toNat d1 d2
    (by dsimp only; rw [n1]; congr 2 <;> (try congr 1) <;> omega) (by dsimp only; rw [n2]; congr 2 <;> (try congr 1) <;> omega) (by omega) (by omega)
    (by dsimp only; omega) (by dsimp only; omega) fuel hf
  obtain ⟨k', c2, c2', -, hl', -, hal', -, -, i0', j0', p2, q2, ls2, lt2, hc2', -, -, -, -, els', elt', -, -, eni', enj', -, X', Y', eX', eY', hv'⟩ :=
    regrid_success geod fs fuel _ d hsrc' hw dict'' g' ni' nj' h'
  dsimp only at hl' hal' els' elt'
  rw [hl] at hl'; cases hl'
  obtain ⟨et, ec⟩ := alignsAfter_unique _ _ _ _ _ _ _ _ _ _ _ hal hal'
  rw [hc', hc2'] at ec
  simp only [Prod.mk.injEq] at ec
  obtain ⟨⟨ea, eb⟩, ⟨ed, ef⟩⟩ := ec
  obtain rfl : i0' = i0 := by omega
  obtain rfl : j0' = j0 := by omega
  obtain rfl : p2 = p1 := by omega
  obtain rfl : q2 = q1 := by omega
  obtain rfl : ls2 = ls' := by omega
  obtain rfl : lt2 = lt' := by omega
  subst eni' enj'
  refine ⟨dict'', g', X', Y', h', eX', eY', fun x y hx hy => ?_⟩
  have u := hv x y hx hy
  have v := hv' x y hx hy
  rw [← et] at v
  exact ⟨v.1.trans u.1.symm, v.2.trans u.2.symm⟩

/-- The points of a successful call, on the sphere. -/
theorem regrid_ofPoints [F64 ℝ] (R : ℝ) (geod : Geod ℝ) (hg : Spec.IsSphere R geod) (fs : Files ℝ) (fuel : Nat) (a : RegridArgs ℝ)
    (d : MatDict ℝ) (hsrc : readSource fs a = .ok d) (hw : d.xg.WF) (dict' : Option (MatDict ℝ)) (g : Grid ℝ) (ni nj : Int)
    (h : regrid geod fs fuel a = some (dict', .ok (g, ni, nj))) (XG YG : Mat ℝ) (hX : g .XG = .arr XG) (hY : g .YG = .arr YG)
    (p q ls lt : Nat) (hls : a.lonSub = ls) (hlt : a.latSub = lt) (hni : ni = ((p * ls : Nat) : Int)) (hnj : nj = ((q * lt : Nat) : Int))
    (c : Nat → Nat → V3 ℝ) (hc : ∀ x y, x ≤ p → y ≤ q → Spec.givenPoint XG YG ls lt x y = c x y) (small : Spec.SmallCells p q c) :
    0 < p ∧ 0 < q ∧ 0 < ls ∧ 0 < lt ∧ ∃ P, OfPoints geod g (p * ls) (q * lt) P ∧
      ∀ a b, a ≤ p * (2 * ls) → b ≤ q * (2 * lt) → Spec.point (P a b) = Spec.meshPoint c ls lt a b := by
  obtain ⟨hp, hq, hls0, hlt0, P, given, pos, hv⟩ := regrid_tile geod fs fuel a d hsrc hw dict' g ni nj h XG YG hX hY p q ls lt hls hlt hni hnj
  have small' : Spec.SmallCells p q (Spec.givenPoint XG YG ls lt) := by
    intro x y hx hy
    rw [hc x y (by omega) (by omega), hc (x + 1) y (by omega) (by omega), hc (x + 1) (y + 1) (by omega) (by omega), hc x (y + 1) (by omega) (by omega)]
    exact small x y hx hy
  refine ⟨hp, hq, hls0, hlt0, P, hv, fun a b ha hb => ?_⟩
  rw [pos R hg small' a b ha hb]
  exact meshPoint_congr p q ls lt hls0 hlt0 _ _ (fun x y hx hy => (given x y hx hy).trans (hc x y hx hy)) a b ha hb

/-! ## C133 -/

/-- Both ways of a refinement in two steps: the calls succeed, and where the points are. -/
theorem two_steps [F64 ℝ] (R : ℝ) (geod : Geod ℝ) (hg : Spec.IsSphere R geod) (fs fs' : Files ℝ) (fuel : Nat) (hf : 4 ≤ fuel)
    (a : RegridArgs ℝ) (d : MatDict ℝ) (hsrc : readSource fs a = .ok d) (hw : d.xg.WF) (dict : Option (MatDict ℝ)) (g1 : Grid ℝ) (p q k l : Nat)
    (hk : a.lonSub = k) (hl : a.latSub = l) (h1 : regrid geod fs fuel a = some (dict, .ok (g1, ((p * k : Nat) : Int), ((q * l : Nat) : Int))))
    (X Y : Mat ℝ) (hX : g1 .XG = .arr X) (hY : g1 .YG = .arr Y) (small : Spec.SmallCells p q (Spec.givenPoint X Y k l))
    (b : RegridArgs ℝ) (e : MatDict ℝ) (hsrc' : readSource fs' b = .ok e) (hw' : e.xg.WF) (eX : e.xg.mat = X) (eY : e.yg.mat = Y)
    (u1 : Spec.UniqueNearest geod b.lon1 b.lat1 (e.xg, e.yg) 0 (q * l)) (u2 : Spec.UniqueNearest geod b.lon2 b.lat2 (e.xg, e.yg) (p * k) 0)
    (k' l' : Nat) (hk' : b.lonSub = k') (hl' : b.latSub = l') (k0 : 0 < k') (l0 : 0 < l') :
    0 < p ∧ 0 < q ∧ 0 < k ∧ 0 < l ∧ ∃ dict2 g2 P2 dict3 g3 P3,
      regrid geod fs' fuel b = some (dict2, .ok (g2, ((p * k * k' : Nat) : Int), ((q * l * l' : Nat) : Int))) ∧
      OfPoints geod g2 (p * k * k') (q * l * l') P2 ∧
      (∀ a b, a ≤ p * k * (2 * k') → b ≤ q * l * (2 * l') →
        Spec.point (P2 a b) = Spec.meshPoint (Spec.refinedMesh (Spec.givenPoint X Y k l) k l) k' l' a b) ∧
      regrid geod fs fuel { a with lonSub := ((k * k' : Nat) : Int), latSub := ((l * l' : Nat) : Int) } =
        some (dict3, .ok (g3, ((p * (k * k') : Nat) : Int), ((q * (l * l') : Nat) : Int))) ∧
      OfPoints geod g3 (p * (k * k')) (q * (l * l')) P3 ∧
      (∀ a b, a ≤ p * (2 * (k * k')) → b ≤ q * (2 * (l * l')) →
        Spec.point (P3 a b) = Spec.meshPoint (Spec.givenPoint X Y k l) (k * k') (l * l') a b) := by
  obtain ⟨hp, hq, kp, lp, P, hP, pos⟩ := regrid_ofPoints R geod hg fs fuel a d hsrc hw dict g1 _ _ h1 X Y hX hY p q k l hk hl rfl rfl
    (Spec.givenPoint X Y k l) (fun _ _ _ _ => rfl) small
  obtain ⟨X', Y', eX', eY', vP⟩ := ofPoints_corner hP
  rw [hX] at eX'; cases eX'
  rw [hY] at eY'; cases eY'
  obtain ⟨k1, -, -, -, -, -, -, -, -, i0, j0, p1, q1, ls1, lt1, -, -, -, ls1p, lt1p, els, elt, -, -, eni, enj, hcomp, -⟩ :=
    regrid_success geod fs fuel a d hsrc hw dict g1 _ _ h1
  have ep : p1 * ls1 = p * k := by exact_mod_cast eni.symm
  have eq' : q1 * lt1 = q * l := by exact_mod_cast enj.symm
  rw [ep, eq'] at hcomp
  obtain ⟨X1, e1, xr, xc⟩ := hcomp .XG
  obtain ⟨Y1, e2, yr, yc⟩ := hcomp .YG
  rw [hX] at e1; cases e1
  rw [hY] at e2; cases e2
  simp only [Spec.nrows, Spec.ncols] at xr xc yr yc
  have pk := Nat.mul_pos hp kp
  have ql := Nat.mul_pos hq lp
  obtain ⟨dict2, g2, X2, Y2, h2, hX2, hY2, -, same⟩ := regrid_whole geod fs' b e hsrc' hw'
    ⟨by rw [eX, eY]; omega, by rw [eX, eY]; omega, by rw [eX]; omega, by rw [eX]; omega⟩ (p * k) (q * l) k' l' (by rw [eX]; omega) (by rw [eX]; omega)
    pk ql hk' hl' k0 l0 u1 u2 fuel hf
  obtain ⟨-, -, -, -, P2, hP2, pos2⟩ := regrid_ofPoints R geod hg fs' fuel b e hsrc' hw' dict2 g2 _ _ h2 X2 Y2 hX2 hY2 (p * k) (q * l) k' l' hk' hl' rfl rfl
    (Spec.refinedMesh (Spec.givenPoint X Y k l) k l) (by
      intro x y hx hy
      unfold Spec.givenPoint Spec.refinedMesh
      rw [(same x y hx hy).1, (same x y hx hy).2, eX, eY, vP x y hx hy]
      exact pos _ _ (by rw [Nat.mul_left_comm]; omega) (by rw [Nat.mul_left_comm]; omega)) (refined_small small k l kp lp)
  obtain ⟨dict3, g3, X3, Y3, h3, hX3, hY3, same3⟩ := regrid_rescaled geod fs fuel hf a d hsrc hw dict g1 _ _ h1 X Y hX hY p q k l hk hl rfl rfl
    (k * k') (l * l') (Nat.mul_pos kp k0) (Nat.mul_pos lp l0)
  obtain ⟨-, -, -, -, P3, hP3, pos3⟩ := regrid_ofPoints R geod hg fs fuel { a with lonSub := ((k * k' : Nat) : Int), latSub := ((l * l' : Nat) : Int) } d
    hsrc hw dict3 g3 _ _ h3 X3 Y3 hX3 hY3 p q (k * k') (l * l') rfl rfl rfl rfl
    (Spec.givenPoint X Y k l) (fun x y hx hy => by
      unfold Spec.givenPoint
      rw [(same3 x y hx hy).1, (same3 x y hx hy).2]) small
  exact ⟨hp, hq, kp, lp, dict2, g2, P2, dict3, g3, P3, h2, hP2, pos2, h3, hP3, pos3⟩

/-- **C133** (x first): on a sphere, `regrid` by `(k,1)` and then of the whole result by `(k',l')` gives the same points, lengths and areas as `regrid`
by `(k·k',l')`. -/
theorem C133_two_steps [F64 ℝ] (R : ℝ) (geod : Geod ℝ) (hg : Spec.IsSphere R geod) (fs fs' : Files ℝ) (fuel : Nat) (hf : 4 ≤ fuel)
    (a : RegridArgs ℝ) (d : MatDict ℝ) (hsrc : readSource fs a = .ok d) (hw : d.xg.WF) (dict : Option (MatDict ℝ)) (g1 : Grid ℝ) (p q k : Nat)
    (hk : a.lonSub = k) (hl : a.latSub = 1) (h1 : regrid geod fs fuel a = some (dict, .ok (g1, ((p * k : Nat) : Int), (q : Int))))
    (X Y : Mat ℝ) (hX : g1 .XG = .arr X) (hY : g1 .YG = .arr Y) (small : Spec.SmallCells p q (Spec.givenPoint X Y k 1))
    (b : RegridArgs ℝ) (e : MatDict ℝ) (hsrc' : readSource fs' b = .ok e) (hw' : e.xg.WF) (eX : e.xg.mat = X) (eY : e.yg.mat = Y)
    (u1 : Spec.UniqueNearest geod b.lon1 b.lat1 (e.xg, e.yg) 0 q) (u2 : Spec.UniqueNearest geod b.lon2 b.lat2 (e.xg, e.yg) (p * k) 0)
    (k' l' : Nat) (hk' : b.lonSub = k') (hl' : b.latSub = l') (k0 : 0 < k') (l0 : 0 < l') :
    ∃ dict2 g2 dict3 g3,
      regrid geod fs' fuel b = some (dict2, .ok (g2, ((p * k * k' : Nat) : Int), ((q * l' : Nat) : Int))) ∧
      regrid geod fs fuel { a with lonSub := ((k * k' : Nat) : Int), latSub := (l' : Int) } =
        some (dict3, .ok (g3, ((p * k * k' : Nat) : Int), ((q * l' : Nat) : Int))) ∧
      Spec.SameOnSphere g3 g2 (p * k * k') (q * l') := by
  obtain ⟨hp, hq, kp, -, dict2, g2, P2, dict3, g3, P3, h2, hP2, pos2, h3, hP3, pos3⟩ := two_steps R geod hg fs fs' fuel hf a d hsrc hw dict g1 p q k 1 hk hl
    (by rw [h1, Nat.mul_one]) X Y hX hY small b e hsrc' hw' eX eY (by rw [Nat.mul_one]; exact u1) u2 k' l' hk' hl' k0 l0
  rw [← Nat.mul_assoc p, Nat.one_mul] at h3 hP3
  rw [Nat.mul_one] at h2 hP2
  refine ⟨dict2, g2, dict3, g3, h2, h3, same_of_points R geod hg hP3 hP2 fun x y hx hy => ?_⟩
  have ex : p * k * (2 * k') = 2 * (p * k * k') := by ring
  have ey : q * 1 * (2 * l') = 2 * (q * l') := by ring
  rw [pos2 x y (by rw [ex]; exact hx) (by rw [ey]; exact hy), mesh_x_first small k k' l' kp k0 l0 x y (by rw [ex]; exact hx) (by rw [ey]; exact hy) hp hq,
    pos3 x y (by rw [show p * (2 * (k * k')) = 2 * (p * k * k') by ring]; exact hx) (by rw [Nat.one_mul, show q * (2 * l') = 2 * (q * l') by ring]; exact hy)]

/-- **C133** (y second): `regrid` by `(k,l)` and then of the whole result by `(1,l')` gives the same corner points as `regrid` by `(k,l·l')`. -/
theorem C133_same_corners [F64 ℝ] (R : ℝ) (geod : Geod ℝ) (hg : Spec.IsSphere R geod) (fs fs' : Files ℝ) (fuel : Nat) (hf : 4 ≤ fuel)
    (a : RegridArgs ℝ) (d : MatDict ℝ) (hsrc : readSource fs a = .ok d) (hw : d.xg.WF) (dict : Option (MatDict ℝ)) (g1 : Grid ℝ) (p q k l : Nat)
    (hk : a.lonSub = k) (hl : a.latSub = l) (h1 : regrid geod fs fuel a = some (dict, .ok (g1, ((p * k : Nat) : Int), ((q * l : Nat) : Int))))
    (X Y : Mat ℝ) (hX : g1 .XG = .arr X) (hY : g1 .YG = .arr Y) (small : Spec.SmallCells p q (Spec.givenPoint X Y k l))
    (b : RegridArgs ℝ) (e : MatDict ℝ) (hsrc' : readSource fs' b = .ok e) (hw' : e.xg.WF) (eX : e.xg.mat = X) (eY : e.yg.mat = Y)
    (u1 : Spec.UniqueNearest geod b.lon1 b.lat1 (e.xg, e.yg) 0 (q * l)) (u2 : Spec.UniqueNearest geod b.lon2 b.lat2 (e.xg, e.yg) (p * k) 0)
    (l' : Nat) (hk' : b.lonSub = 1) (hl' : b.latSub = l') (l0 : 0 < l') :
    ∃ dict2 g2 dict3 g3,
      regrid geod fs' fuel b = some (dict2, .ok (g2, ((p * k : Nat) : Int), ((q * l * l' : Nat) : Int))) ∧
      regrid geod fs fuel { a with lonSub := (k : Int), latSub := ((l * l' : Nat) : Int) } =
        some (dict3, .ok (g3, ((p * k : Nat) : Int), ((q * l * l' : Nat) : Int))) ∧
      Spec.SameCornerPoints g3 g2 (p * k) (q * l * l') := by
  obtain ⟨hp, hq, kp, lp, dict2, g2, P2, dict3, g3, P3, h2, hP2, pos2, h3, hP3, pos3⟩ := two_steps R geod hg fs fs' fuel hf a d hsrc hw dict g1 p q k l hk hl
    h1 X Y hX hY small b e hsrc' hw' eX eY u1 u2 1 l' hk' hl' (by omega) l0
  rw [Nat.mul_one] at h2 hP2
  rw [← Nat.mul_assoc q, Nat.mul_one] at h3 hP3
  refine ⟨dict2, g2, dict3, g3, h2, h3, sameCornerPoints_of_points hP3 hP2 fun x y hx hy => ?_⟩
  have ey : q * l * (2 * l') = 2 * (q * l * l') := by ring
  rw [pos2 _ _ (by omega) (by rw [ey]; omega), mesh_y_second small k l l' kp lp l0 x (2 * y) hx (by rw [ey]; omega) hp hq,
    pos3 _ _ (by rw [Nat.mul_one, Nat.mul_left_comm]; omega) (by rw [show q * (2 * (l * l')) = 2 * (q * l * l') by ring]; omega)]

/-! ## `mkgrid` and `regrid` -/

/-- The corners of a box as a mesh of one cell. -/
noncomputable def boxMesh (lon1 lat1 lon2 lat2 : ℝ) (x y : Nat) : V3 ℝ :=
  Spec.point (if x = 0 then lon1 else lon2, if y = 0 then lat2 else lat1)

theorem boxMesh_small {lon1 lat1 lon2 lat2 : ℝ} (hb : Spec.NorthWestBox lon1 lat1 lon2 lat2) : Spec.SmallCells 1 1 (boxMesh lon1 lat1 lon2 lat2) := by
  obtain ⟨h, hp⟩ := box_patch hb
  intro x y hx hy
  obtain rfl : x = 0 := by omega
  obtain rfl : y = 0 := by omega
  refine ⟨h, hp.center, fun z hz => ?_⟩
  simp only [boxMesh, List.mem_cons, List.not_mem_nil, or_false, if_true, Nat.zero_add, Nat.one_ne_zero, if_false] at hz
  rcases hz with rfl | rfl | rfl | rfl
  · exact hp.sw
  · exact hp.se
  · exact hp.ne
  · exact hp.nw

/-- A `mkgrid` grid is its box, refined. -/
theorem boxMesh_point {lon1 lat1 lon2 lat2 : ℝ} (hb : Spec.NorthWestBox lon1 lat1 lon2 lat2) (m n : Nat) (hm : 0 < m) (hn : 0 < n) (a b : Nat)
    (ha : a ≤ 2 * m) (hb' : b ≤ 2 * n) : Spec.meshPoint (boxMesh lon1 lat1 lon2 lat2) m n a b =
      Spec.boxPoint lon1 lat1 lon2 lat2 (a / (2 * m : Nat)) (b / (2 * n : Nat)) := by
  have := meshPoint_cell 1 1 m n hm hn _ (boxMesh_small hb) 0 0 a b (by omega) (by omega) ha hb'
  rw [Nat.zero_mul, Nat.zero_add, Nat.zero_mul, Nat.zero_add] at this
  rw [this]
  rfl

theorem boxMesh_refined {lon1 lat1 lon2 lat2 : ℝ} (hb : Spec.NorthWestBox lon1 lat1 lon2 lat2) (m n : Nat) (hm : 0 < m) (hn : 0 < n) (x y : Nat)
    (hx : x ≤ m) (hy : y ≤ n) : Spec.cornerOfBox lon1 lat1 lon2 lat2 m n x y = Spec.refinedMesh (boxMesh lon1 lat1 lon2 lat2) m n x y := by
  unfold Spec.refinedMesh
  rw [boxMesh_point hb m n hm hn _ _ (by omega) (by omega)]
  unfold Spec.cornerOfBox
  push_cast
  rw [mul_div_mul_left _ _ two_ne_zero, mul_div_mul_left _ _ two_ne_zero]

section
variable [F64 ℝ] (R : ℝ) (hR : 0 < R) (geod : Geod ℝ) (hg : Spec.IsSphere R geod) (lon1 lat1 lon2 lat2 : ℝ)
  (hb : Spec.NorthWestBox lon1 lat1 lon2 lat2)
include hR hg hb

theorem mk_then_regrid (m n : Nat) (hm : 1 ≤ m) (hn : 1 ≤ n) (g : Grid ℝ) (X Y : Mat ℝ)
    (hmk : mkgrid geod lon1 lat1 lon2 lat2 (m : Int) (n : Int) = .ok (g, (m : Int), (n : Int))) (hX : g .XG = .arr X) (hY : g .YG = .arr Y)
    (fs : Files ℝ) (a : RegridArgs ℝ) (d : MatDict ℝ) (hsrc : readSource fs a = .ok d) (hw : d.xg.WF) (dX : d.xg.mat = X) (dY : d.yg.mat = Y)
    (a1 : a.lon1 = lon1) (a2 : a.lat1 = lat1) (a3 : a.lon2 = lon2) (a4 : a.lat2 = lat2) (ls lt : Nat) (hls : a.lonSub = ls) (hlt : a.latSub = lt)
    (ls0 : 1 ≤ ls) (lt0 : 1 ≤ lt) (fuel : Nat) (hf : 4 ≤ fuel) : ∃ dict' g' P,
      regrid geod fs fuel a = some (dict', .ok (g', ((m * ls : Nat) : Int), ((n * lt : Nat) : Int))) ∧ OfPoints geod g' (m * ls) (n * lt) P ∧
      ∀ a b, a ≤ m * (2 * ls) → b ≤ n * (2 * lt) →
        Spec.point (P a b) = Spec.meshPoint (Spec.refinedMesh (boxMesh lon1 lat1 lon2 lat2) m n) ls lt a b := by
  obtain ⟨dict', g', XG, YG, hr, hXG, hYG, -, given, -⟩ := C105_refines R hR geod hg lon1 lat1 lon2 lat2 m n hm hn hb g X Y hmk hX hY fs a d hsrc hw dX dY
    a1 a2 a3 a4 ls lt hls hlt ls0 lt0 fuel hf
  have sm := refined_small (boxMesh_small hb) m n hm hn
  rw [Nat.one_mul, Nat.one_mul] at sm
  obtain ⟨-, -, -, -, P, hP, pos⟩ := regrid_ofPoints R geod hg fs fuel a d hsrc hw dict' g' _ _ hr XG YG hXG hYG m n ls lt hls hlt rfl rfl
    (Spec.refinedMesh (boxMesh lon1 lat1 lon2 lat2) m n) (fun x y hx hy => by rw [given x y hx hy, boxMesh_refined hb m n hm hn x y hx hy]) sm
  exact ⟨dict', g', P, hr, hP, pos⟩

/-- **C133** (`mkgrid`, x first): a grid that `mkgrid` makes with `m` by 1 cells, refined by `regrid` by `(ls,lt)`, has the points, lengths and areas
of the grid that `mkgrid` makes with `m·ls` by `lt` cells. -/
theorem C133_mkgrid_then_regrid (m : Nat) (hm : 1 ≤ m) (g : Grid ℝ) (X Y : Mat ℝ)
    (hmk : mkgrid geod lon1 lat1 lon2 lat2 (m : Int) 1 = .ok (g, (m : Int), 1)) (hX : g .XG = .arr X) (hY : g .YG = .arr Y)
    (fs : Files ℝ) (a : RegridArgs ℝ) (d : MatDict ℝ) (hsrc : readSource fs a = .ok d) (hw : d.xg.WF) (dX : d.xg.mat = X) (dY : d.yg.mat = Y)
    (a1 : a.lon1 = lon1) (a2 : a.lat1 = lat1) (a3 : a.lon2 = lon2) (a4 : a.lat2 = lat2) (ls lt : Nat) (hls : a.lonSub = ls) (hlt : a.latSub = lt)
    (ls0 : 1 ≤ ls) (lt0 : 1 ≤ lt) (fuel : Nat) (hf : 4 ≤ fuel) : ∃ dict' g2 g3,
      regrid geod fs fuel a = some (dict', .ok (g2, ((m * ls : Nat) : Int), (lt : Int))) ∧
      mkgrid geod lon1 lat1 lon2 lat2 ((m * ls : Nat) : Int) (lt : Int) = .ok (g3, ((m * ls : Nat) : Int), (lt : Int)) ∧
      Spec.SameOnSphere g3 g2 (m * ls) lt := by
  obtain ⟨dict', g2, P2, h2, hP2, pos2⟩ := mk_then_regrid R hR geod hg lon1 lat1 lon2 lat2 hb m 1 hm (le_refl _) g X Y hmk hX hY fs a d hsrc hw dX dY
    a1 a2 a3 a4 ls lt hls hlt ls0 lt0 fuel hf
  obtain ⟨P3, g3, h3, pos3, hP3⟩ := mkgrid_sphere R geod hg lon1 lat1 lon2 lat2 (m * ls) lt (Nat.mul_pos hm ls0) lt0 (box_of_northWest hb)
  rw [Nat.one_mul] at h2 hP2
  refine ⟨dict', g2, g3, h2, h3, same_of_points R geod hg hP3 hP2 fun x y hx hy => ?_⟩
  have ex : m * (2 * ls) = 2 * (m * ls) := Nat.mul_left_comm _ _ _
  rw [pos2 x y (by omega) (by omega), mesh_x_first (boxMesh_small hb) m ls lt hm ls0 lt0 x y (by rw [Nat.one_mul]; omega) (by omega) (by omega) (by omega),
    Nat.one_mul, boxMesh_point hb _ _ (Nat.mul_pos hm ls0) lt0 x y hx hy, (pos3 x y hx hy).1]

/-- **C133** (`mkgrid`, y second): a grid that `mkgrid` makes with `m` by `n` cells, refined by `regrid` by `(1,lt)`, has the corner points of the grid
that `mkgrid` makes with `m` by `n·lt` cells. -/
theorem C133_mkgrid_same_corners (m n : Nat) (hm : 1 ≤ m) (hn : 1 ≤ n) (g : Grid ℝ) (X Y : Mat ℝ)
    (hmk : mkgrid geod lon1 lat1 lon2 lat2 (m : Int) (n : Int) = .ok (g, (m : Int), (n : Int))) (hX : g .XG = .arr X) (hY : g .YG = .arr Y)
    (fs : Files ℝ) (a : RegridArgs ℝ) (d : MatDict ℝ) (hsrc : readSource fs a = .ok d) (hw : d.xg.WF) (dX : d.xg.mat = X) (dY : d.yg.mat = Y)
    (a1 : a.lon1 = lon1) (a2 : a.lat1 = lat1) (a3 : a.lon2 = lon2) (a4 : a.lat2 = lat2) (lt : Nat) (hls : a.lonSub = 1) (hlt : a.latSub = lt)
    (lt0 : 1 ≤ lt) (fuel : Nat) (hf : 4 ≤ fuel) : ∃ dict' g2 g3,
      regrid geod fs fuel a = some (dict', .ok (g2, (m : Int), ((n * lt : Nat) : Int))) ∧
      mkgrid geod lon1 lat1 lon2 lat2 (m : Int) ((n * lt : Nat) : Int) = .ok (g3, (m : Int), ((n * lt : Nat) : Int)) ∧
      Spec.SameCornerPoints g3 g2 m (n * lt) := by
  obtain ⟨dict', g2, P2, h2, hP2, pos2⟩ := mk_then_regrid R hR geod hg lon1 lat1 lon2 lat2 hb m n hm hn g X Y hmk hX hY fs a d hsrc hw dX dY
    a1 a2 a3 a4 1 lt hls hlt (le_refl _) lt0 fuel hf
  obtain ⟨P3, g3, h3, pos3, hP3⟩ := mkgrid_sphere R geod hg lon1 lat1 lon2 lat2 m (n * lt) hm (Nat.mul_pos hn lt0) (box_of_northWest hb)
  rw [Nat.mul_one] at h2 hP2
  refine ⟨dict', g2, g3, h2, h3, sameCornerPoints_of_points hP3 hP2 fun x y hx hy => ?_⟩
  have ey : n * (2 * lt) = 2 * (n * lt) := Nat.mul_left_comm _ _ _
  rw [pos2 _ _ (by omega) (by omega), mesh_y_second (boxMesh_small hb) m n lt hm hn lt0 x (2 * y) (by omega) (by rw [Nat.one_mul]; omega) (by omega) (by omega),
    Nat.mul_one, boxMesh_point hb _ _ hm (Nat.mul_pos hn lt0) _ _ (by omega) (by omega), (pos3 _ _ (by omega) (by omega)).1]
end

/-! ## Where the order matters -/

/-- The middle of an arc. -/
theorem between_half {p q h : V3 ℝ} (hp : Spec.OnSphere p) (hq : Spec.OnSphere q) (h1 : 0 < Spec.inner3 h p) (h2 : 0 < Spec.inner3 h q) (ne : p ≠ q) :
    ∃ r : ℝ, 0 < r ∧ r = sin (1 / 2 * arccos (Spec.inner3 p q)) / sin (arccos (Spec.inner3 p q)) ∧
      Spec.between p q (1 / 2) = ⟨r * (p.x + q.x), r * (p.y + q.y), r * (p.z + q.z)⟩ := by
  have hw := hemi_lt_pi hp hq h1 h2
  have w0 : 0 < arccos (Spec.inner3 p q) := by
    rw [arccos_pos]
    refine lt_of_le_of_ne (inner_unit_bounds hp hq).2 fun e => ne ?_
    unfold Spec.OnSphere Spec.inner3 at *
    have e : (p.x - q.x) ^ 2 + (p.y - q.y) ^ 2 + (p.z - q.z) ^ 2 = 0 := by nlinarith
    apply V3.ext' <;> nlinarith [sq_nonneg (p.x - q.x), sq_nonneg (p.y - q.y), sq_nonneg (p.z - q.z)]
  have hs := sin_pos_of_pos_of_lt_pi w0 hw
  refine ⟨_, div_pos (sin_pos_of_pos_of_lt_pi (by linarith) (by linarith)) hs, rfl, ?_⟩
  unfold Spec.between
  dsimp only
  rw [if_neg (ne_of_gt hs), show (1 - 1 / 2 : ℝ) = 1 / 2 by norm_num]
  apply V3.ext' <;> dsimp only <;> ring

/-- The middle of the middle column of a box on the equator is not the middle of its middle row. -/
theorem middle_differs (lon1 lat lon2 : ℝ) (h0 : 0 < lat) (hb : Spec.NorthWestBox lon1 lat lon2 0) :
    Spec.between (Spec.boxPoint lon1 lat lon2 0 0 (1 / 2)) (Spec.boxPoint lon1 lat lon2 0 1 (1 / 2)) (1 / 2) ≠ Spec.boxPoint lon1 lat lon2 0 (1 / 2) (1 / 2) := by
  obtain ⟨h, hp⟩ := box_patch hb
  have hw : ∀ p q : V3 ℝ, (Spec.OnSphere p ∧ 0 < Spec.inner3 h p) → (Spec.OnSphere q ∧ 0 < Spec.inner3 h q) → Spec.between p q 1 = q :=
    fun p q a b => between_one a.1 b.1 (hemi_lt_pi a.1 b.1 a.2 b.2)
  unfold Spec.boxPoint
  rw [between_zero, between_zero, hw _ _ hp.sw hp.se, hw _ _ hp.nw hp.ne]
  have hpi := Real.pi_pos
  obtain ⟨-, b90⟩ := abs_lt.1 hb.north
  obtain ⟨z, z0, z1⟩ := hb.east
  have cD : cos (Spec.rad lon2 - Spec.rad lon1) < 1 := by
    rw [← cos_sub_int_mul_two_pi _ z, ← cos_zero]
    refine cos_lt_cos_of_nonneg_of_le_pi (le_refl _) ?_ ?_ <;> unfold Spec.rad <;> nlinarith
  rw [cos_sub] at cD
  have sf : 0 < sin (Spec.rad lat) := by
    apply sin_pos_of_pos_of_lt_pi <;> unfold Spec.rad
    · positivity
    · nlinarith
  have cf : 0 < cos (Spec.rad lat) := by
    apply cos_pos_of_mem_Ioo
    constructor <;> unfold Spec.rad <;> nlinarith
  have sc := sin_sq_add_cos_sq (Spec.rad lat)
  have s1 := sin_sq_add_cos_sq (Spec.rad lon1)
  have s2 := sin_sq_add_cos_sq (Spec.rad lon2)
  have z00 : Spec.rad 0 = 0 := by unfold Spec.rad; ring
  have eSW : Spec.point (lon1, 0) = ⟨cos (Spec.rad lon1), sin (Spec.rad lon1), 0⟩ := by
    unfold Spec.point; dsimp only; rw [z00, cos_zero, sin_zero]; apply V3.ext' <;> dsimp only <;> ring
  have eSE : Spec.point (lon2, 0) = ⟨cos (Spec.rad lon2), sin (Spec.rad lon2), 0⟩ := by
    unfold Spec.point; dsimp only; rw [z00, cos_zero, sin_zero]; apply V3.ext' <;> dsimp only <;> ring
  have eNW : Spec.point (lon1, lat) = ⟨cos (Spec.rad lat) * cos (Spec.rad lon1), cos (Spec.rad lat) * sin (Spec.rad lon1), sin (Spec.rad lat)⟩ := by
    unfold Spec.point; dsimp only; apply V3.ext' <;> dsimp only <;> ring
  have eNE : Spec.point (lon2, lat) = ⟨cos (Spec.rad lat) * cos (Spec.rad lon2), cos (Spec.rad lat) * sin (Spec.rad lon2), sin (Spec.rad lat)⟩ := by
    unfold Spec.point; dsimp only; apply V3.ext' <;> dsimp only <;> ring
  have hsw := hp.sw
  have hse := hp.se
  have hnw := hp.nw
  have hne := hp.ne
  rw [eSW] at hsw ⊢
  rw [eSE] at hse ⊢
  rw [eNW] at hnw ⊢
  rw [eNE] at hne ⊢
  clear hp hb eSW eSE eNW eNE hw
  generalize cos (Spec.rad lon1) = c1 at *
  generalize sin (Spec.rad lon1) = d1 at *
  generalize cos (Spec.rad lon2) = c2 at *
  generalize sin (Spec.rad lon2) = d2 at *
  generalize cos (Spec.rad lat) = c at *
  generalize sin (Spec.rad lat) = s at *
  have ne12 : ¬ (c1 = c2 ∧ d1 = d2) := by
    rintro ⟨rfl, rfl⟩; nlinarith
  obtain ⟨r0, r0p, -, e0⟩ := between_half hsw.1 hse.1 hsw.2 hse.2 (fun e => ne12 ⟨congrArg V3.x e, congrArg V3.y e⟩)
  obtain ⟨r1, r1p, -, e1⟩ := between_half hnw.1 hne.1 hnw.2 hne.2 (fun e => ne12 ⟨mul_left_cancel₀ (ne_of_gt cf) (congrArg V3.x e),
    mul_left_cancel₀ (ne_of_gt cf) (congrArg V3.y e)⟩)
  obtain ⟨r3, r3p, q3, e3⟩ := between_half hsw.1 hnw.1 hsw.2 hnw.2 (fun e => ne_of_gt sf (congrArg V3.z e).symm)
  obtain ⟨r4, r4p, q4, e4⟩ := between_half hse.1 hne.1 hse.2 hne.2 (fun e => ne_of_gt sf (congrArg V3.z e).symm)
  have e34 : r4 = r3 := by
    rw [q3, q4]
    have : Spec.inner3 (⟨c2, d2, 0⟩ : V3 ℝ) ⟨c * c2, c * d2, s⟩ = Spec.inner3 (⟨c1, d1, 0⟩ : V3 ℝ) ⟨c * c1, c * d1, s⟩ := by
      unfold Spec.inner3; dsimp only; linear_combination c * s2 - c * s1
    rw [this]
  subst e34
  have m0 := between_unit hsw.1 hse.1 (1 / 2)
  have m1 := between_unit hnw.1 hne.1 (1 / 2)
  have p0 := between_hemi hsw.1 hse.1 hsw.2 hse.2 (t := 1 / 2) (by norm_num) (by norm_num)
  have p1 := between_hemi hnw.1 hne.1 hnw.2 hne.2 (t := 1 / 2) (by norm_num) (by norm_num)
  have m3 := between_unit hsw.1 hnw.1 (1 / 2)
  have m4 := between_unit hse.1 hne.1 (1 / 2)
  have p3 := between_hemi hsw.1 hnw.1 hsw.2 hnw.2 (t := 1 / 2) (by norm_num) (by norm_num)
  have p4 := between_hemi hse.1 hne.1 hse.2 hne.2 (t := 1 / 2) (by norm_num) (by norm_num)
  rw [e0] at m0 p0
  rw [e1] at m1 p1
  rw [e3] at m3 p3
  rw [e4] at m4 p4
  rw [e0, e1, e3, e4]
  dsimp only at *
  obtain ⟨r2, r2p, -, e2⟩ := between_half m0 m1 p0 p1 (fun e => by
    have := congrArg V3.z e
    dsimp only at this
    have : 0 < r1 * (s + s) := by positivity
    linarith)
  obtain ⟨r5, r5p, -, e5⟩ := between_half m3 m4 p3 p4 (fun e => ne12 ⟨by
      have := congrArg V3.x e
      dsimp only at this
      have h' : r4 * (1 + c) * c1 = r4 * (1 + c) * c2 := by linarith
      exact mul_left_cancel₀ (ne_of_gt (by positivity)) h', by
      have := congrArg V3.y e
      dsimp only at this
      have h' : r4 * (1 + c) * d1 = r4 * (1 + c) * d2 := by linarith
      exact mul_left_cancel₀ (ne_of_gt (by positivity)) h'⟩)
  rw [e2, e5]
  intro e
  have ex := congrArg V3.x e
  have ey := congrArg V3.y e
  have ez := congrArg V3.z e
  dsimp only at ex ey ez
  unfold Spec.OnSphere Spec.inner3 at m0 m1
  dsimp only at m0 m1
  -- the coefficients of `(c1 + c2, d1 + d2)` and of the third coordinate agree
  have az : r5 * r4 = r2 * r1 := by
    have : (r5 * r4) * (2 * s) = (r2 * r1) * (2 * s) := by linarith
    exact mul_right_cancel₀ (ne_of_gt (by positivity)) this
  have ax : (r5 * r4 * (1 + c) - r2 * (r0 + r1 * c)) * (c1 + c2) = 0 := by linarith
  have ay : (r5 * r4 * (1 + c) - r2 * (r0 + r1 * c)) * (d1 + d2) = 0 := by linarith
  have v0 : (c1 + c2) ^ 2 + (d1 + d2) ^ 2 ≠ 0 := by
    intro v
    have : r0 * r0 * ((c1 + c2) ^ 2 + (d1 + d2) ^ 2) = 1 := by linear_combination m0
    rw [v, mul_zero] at this
    exact zero_ne_one this
  have k0 : r5 * r4 * (1 + c) - r2 * (r0 + r1 * c) = 0 := by
    have : (r5 * r4 * (1 + c) - r2 * (r0 + r1 * c)) * ((c1 + c2) ^ 2 + (d1 + d2) ^ 2) = 0 := by
      linear_combination (c1 + c2) * ax + (d1 + d2) * ay
    exact (mul_eq_zero.1 this).resolve_right v0
  rw [az] at k0
  have k1 : r1 = r0 := by
    have : r2 * r1 = r2 * r0 := by linarith
    exact mul_left_cancel₀ (ne_of_gt r2p) this
  subst k1
  -- so the two middle points of the sides have the same length, which is not so
  have k2 : r1 ^ 2 * (s ^ 2 * (4 - ((c1 + c2) ^ 2 + (d1 + d2) ^ 2))) = 0 := by
    linear_combination m1 - m0 - r1 ^ 2 * ((c1 + c2) ^ 2 + (d1 + d2) ^ 2) * sc
  have k3 : 0 < r1 ^ 2 * (s ^ 2 * (4 - ((c1 + c2) ^ 2 + (d1 + d2) ^ 2))) := by
    have ev : (c1 + c2) ^ 2 + (d1 + d2) ^ 2 = 2 + 2 * (c2 * c1 + d2 * d1) := by linear_combination s1 + s2
    have : 0 < 4 - ((c1 + c2) ^ 2 + (d1 + d2) ^ 2) := by rw [ev]; linarith
    positivity
  linarith

/-- **C133** (the other order): dividing first in y is different.  For every box whose southern side is on the equator, the grid that `mkgrid` makes with
1 by 2 cells, refined by `regrid` by `(2,1)`, has its middle corner at another place than the grid that `mkgrid` makes with 2 by 2 cells. -/
theorem C133_order_matters [F64 ℝ] (R : ℝ) (hR : 0 < R) (geod : Geod ℝ) (hg : Spec.IsSphere R geod) (lon1 lat lon2 : ℝ) (h0 : 0 < lat)
    (hb : Spec.NorthWestBox lon1 lat lon2 0) (g : Grid ℝ) (X Y : Mat ℝ) (hmk : mkgrid geod lon1 lat lon2 0 1 2 = .ok (g, 1, 2))
    (hX : g .XG = .arr X) (hY : g .YG = .arr Y) (fs : Files ℝ) (a : RegridArgs ℝ) (d : MatDict ℝ) (hsrc : readSource fs a = .ok d) (hw : d.xg.WF)
    (dX : d.xg.mat = X) (dY : d.yg.mat = Y) (a1 : a.lon1 = lon1) (a2 : a.lat1 = lat) (a3 : a.lon2 = lon2) (a4 : a.lat2 = 0) (hls : a.lonSub = 2)
    (hlt : a.latSub = 1) (fuel : Nat) (hf : 4 ≤ fuel) : ∃ dict' g2 X2 Y2 g3 X3 Y3,
      regrid geod fs fuel a = some (dict', .ok (g2, 2, 2)) ∧ mkgrid geod lon1 lat lon2 0 2 2 = .ok (g3, 2, 2) ∧
      g2 .XG = .arr X2 ∧ g2 .YG = .arr Y2 ∧ g3 .XG = .arr X3 ∧ g3 .YG = .arr Y3 ∧
      Spec.point (X2.get 1 1, Y2.get 1 1) ≠ Spec.point (X3.get 1 1, Y3.get 1 1) := by
  obtain ⟨dict', g2, P2, h2, hP2, pos2⟩ := mk_then_regrid R hR geod hg lon1 lat lon2 0 hb 1 2 (by omega) (by omega) g X Y hmk hX hY fs a d hsrc hw dX dY
    a1 a2 a3 a4 2 1 hls hlt (by omega) (by omega) fuel hf
  obtain ⟨P3, g3, h3, pos3, hP3⟩ := mkgrid_sphere R geod hg lon1 lat lon2 0 2 2 (by omega) (by omega) (box_of_northWest hb)
  obtain ⟨X2, Y2, hX2, hY2, v2⟩ := ofPoints_corner hP2
  obtain ⟨X3, Y3, hX3, hY3, v3⟩ := ofPoints_corner hP3
  refine ⟨dict', g2, X2, Y2, g3, X3, Y3, h2, h3, hX2, hY2, hX3, hY3, ?_⟩
  rw [v2 1 1 (by omega) (by omega), v3 1 1 (by omega) (by omega), pos2 _ _ (by omega) (by omega), (pos3 _ _ (by omega) (by omega)).1]
  have sm := refined_small (boxMesh_small hb) 1 2 (by omega) (by omega)
  have := meshPoint_cell _ _ 2 1 (by omega) (by omega) _ sm 0 1 2 0 (by omega) (by omega) (by omega) (by omega)
  rw [show 0 * (2 * 2) + 2 = 2 * 1 by omega] at this
  rw [this]
  unfold patchPoint
  rw [Nat.cast_zero, zero_div, between_zero, ← boxMesh_refined hb 1 2 (by omega) (by omega) 0 1 (by omega) (by omega),
    ← boxMesh_refined hb 1 2 (by omega) (by omega) (0 + 1) 1 (by omega) (by omega)]
  unfold Spec.cornerOfBox
  have := middle_differs lon1 lat lon2 h0 hb
  norm_num at this ⊢
  exact this

/-- Bytes of real numbers play no role when the source is a dictionary. -/
noncomputable local instance : F64 ℝ := ⟨fun _ => 0, fun _ => 0⟩

/-- The north Atlantic box of C82: 3 by 1 cells refined 2 by 4 have the points, lengths and areas of 6 by 4 cells; 3 by 2 cells refined 1 by 2 have the
corners of 3 by 4 cells. -/
example : ∃ (geod : Geod ℝ) (a b : RegridArgs ℝ) (d e : Option (MatDict ℝ)) (g2 g3 k2 k3 : Grid ℝ), Spec.IsSphere 6370997 geod ∧
    regrid geod ⟨fun _ => none, fun _ => .error .ioError⟩ 4 a = some (d, .ok (g2, ((3 * 2 : Nat) : Int), ((4 : Nat) : Int))) ∧
    mkgrid geod (-60) 50 (-20) 30 ((3 * 2 : Nat) : Int) ((4 : Nat) : Int) = .ok (g3, ((3 * 2 : Nat) : Int), ((4 : Nat) : Int)) ∧
    Spec.SameOnSphere g3 g2 (3 * 2) 4 ∧
    regrid geod ⟨fun _ => none, fun _ => .error .ioError⟩ 4 b = some (e, .ok (k2, ((3 : Nat) : Int), ((2 * 2 : Nat) : Int))) ∧
    mkgrid geod (-60) 50 (-20) 30 ((3 : Nat) : Int) ((2 * 2 : Nat) : Int) = .ok (k3, ((3 : Nat) : Int), ((2 * 2 : Nat) : Int)) ∧
    Spec.SameCornerPoints k3 k2 3 (2 * 2) := by
  obtain ⟨geod, hg⟩ := C80_sphere_exists 6370997
  have hb : Spec.NorthWestBox (-60) 50 (-20) 30 := by
    refine ⟨?_, ?_, by norm_num, 0, by norm_num, by norm_num⟩ <;> rw [abs_lt] <;> norm_num
  obtain ⟨g, X, Y, XC, YC, hmk, hX, hY, hXC, -, -⟩ := C96_positions 6370997 geod hg (-60) 50 (-20) 30 3 1 (by norm_num) (by norm_num) (box_of_northWest hb)
  obtain ⟨d, g2, g3, h2, h3, h23⟩ := C133_mkgrid_then_regrid 6370997 (by norm_num) geod hg (-60) 50 (-20) 30 hb 3 (by norm_num) g X Y hmk hX hY
    ⟨fun _ => none, fun _ => .error .ioError⟩ (Spec.onDict ⟨false, none, none, none, none, none, none, -60, 50, -20, 30, 2, 4⟩ ⟨.ofC X, .ofC Y, g⟩)
    ⟨.ofC X, .ofC Y, g⟩ (readSource_onDict _ _ _ XC hXC) (NArr.ofC_wf _) rfl rfl rfl rfl rfl rfl 2 4 rfl rfl (by norm_num) (by norm_num) 4 (le_refl _)
  obtain ⟨g', X', Y', XC', YC', hmk', hX', hY', hXC', -, -⟩ := C96_positions 6370997 geod hg (-60) 50 (-20) 30 3 2 (by norm_num) (by norm_num)
    (box_of_northWest hb)
  obtain ⟨e, k2, k3, f2, f3, f23⟩ := C133_mkgrid_same_corners 6370997 (by norm_num) geod hg (-60) 50 (-20) 30 hb 3 2 (by norm_num) (by norm_num) g' X' Y'
    hmk' hX' hY' ⟨fun _ => none, fun _ => .error .ioError⟩
    (Spec.onDict ⟨false, none, none, none, none, none, none, -60, 50, -20, 30, 1, 2⟩ ⟨.ofC X', .ofC Y', g'⟩)
    ⟨.ofC X', .ofC Y', g'⟩ (readSource_onDict _ _ _ XC' hXC') (NArr.ofC_wf _) rfl rfl rfl rfl rfl rfl 2 rfl rfl (by norm_num) 4 (le_refl _)
  exact ⟨geod, _, _, d, e, g2, g3, k2, k3, hg, h2, h3, h23, f2, f3, f23⟩

/-- The hypotheses of the theorems on two calls of `regrid` hold: 3 by 1 cells of the same box, refined 2 by 1 and then 2 by 3, or 2 by 2 and then 1 by 3,
with the corners of the box in every call. -/
example (ls lt : Nat) (hls : 1 ≤ ls) (hlt : 1 ≤ lt) : ∃ (geod : Geod ℝ) (a b : RegridArgs ℝ) (d e : MatDict ℝ) (dict : Option (MatDict ℝ)) (g1 : Grid ℝ) (X Y : Mat ℝ),
    let fs : Files ℝ := ⟨fun _ => none, fun _ => .error .ioError⟩
    Spec.IsSphere 6370997 geod ∧ readSource fs a = .ok d ∧ d.xg.WF ∧ a.lonSub = ls ∧ a.latSub = lt ∧
    regrid geod fs 4 a = some (dict, .ok (g1, ((3 * ls : Nat) : Int), ((1 * lt : Nat) : Int))) ∧ g1 .XG = .arr X ∧ g1 .YG = .arr Y ∧
    Spec.SmallCells 3 1 (Spec.givenPoint X Y ls lt) ∧ readSource fs b = .ok e ∧ e.xg.WF ∧ e.xg.mat = X ∧ e.yg.mat = Y ∧
    Spec.UniqueNearest geod b.lon1 b.lat1 (e.xg, e.yg) 0 (1 * lt) ∧ Spec.UniqueNearest geod b.lon2 b.lat2 (e.xg, e.yg) (3 * ls) 0 ∧ b.latSub = 3 := by
  obtain ⟨geod, hg⟩ := C80_sphere_exists 6370997
  have hb : Spec.NorthWestBox (-60) 50 (-20) 30 := by
    refine ⟨?_, ?_, by norm_num, 0, by norm_num, by norm_num⟩ <;> rw [abs_lt] <;> norm_num
  obtain ⟨g, X, Y, XC, YC, hmk, hX, hY, hXC, -, -⟩ := C96_positions 6370997 geod hg (-60) 50 (-20) 30 3 1 (by norm_num) (by norm_num) (box_of_northWest hb)
  have hsrc := readSource_onDict (F := ℝ) ⟨fun _ => none, fun _ => .error .ioError⟩ ⟨false, none, none, none, none, none, none, -60, 50, -20, 30, (ls : Int), (lt : Int)⟩
    ⟨.ofC X, .ofC Y, g⟩ XC hXC
  obtain ⟨dict, g1, X1, Y1, h1, hX1, hY1, cmp, given, -⟩ := C105_refines 6370997 (by norm_num) geod hg (-60) 50 (-20) 30 3 1 (by norm_num) (by norm_num) hb g X Y hmk
    hX hY ⟨fun _ => none, fun _ => .error .ioError⟩ _ _ hsrc (NArr.ofC_wf _) rfl rfl rfl rfl rfl rfl ls lt rfl rfl hls hlt 4 (le_refl _)
  obtain ⟨dict', g2, g3, h2, h3, h23⟩ := C133_mkgrid_then_regrid 6370997 (by norm_num) geod hg (-60) 50 (-20) 30 hb 3 (by norm_num) g X Y hmk hX hY
    ⟨fun _ => none, fun _ => .error .ioError⟩ _ _ hsrc (NArr.ofC_wf _) rfl rfl rfl rfl rfl rfl ls lt rfl rfl hls hlt 4 (le_refl _)
  rw [h1] at h2
  simp only [Option.some.injEq, Prod.mk.injEq, Except.ok.injEq] at h2
  obtain ⟨-, rfl, -⟩ := h2
  obtain ⟨X3, Y3, X1', Y1', hX3, hY3, hX1', hY1', pt⟩ := h23.corners
  rw [hX1] at hX1'; cases hX1'
  rw [hY1] at hY1'; cases hY1'
  obtain ⟨g4, X4, Y4, -, -, h4, hX4, hY4, -, -, pos4, -⟩ := C96_positions 6370997 geod hg (-60) 50 (-20) 30 (3 * ls) lt (by omega) hlt (box_of_northWest hb)
  rw [h3] at h4; cases h4
  rw [hX3] at hX4; cases hX4
  rw [hY3] at hY4; cases hY4
  obtain ⟨X', eX, xr, xc⟩ := cmp .XG
  rw [hX1] at eX; cases eX
  obtain ⟨XC1, hXC1, -⟩ := cmp .XC
  simp only [Spec.nrows, Spec.ncols] at xr xc
  obtain ⟨u1, u2⟩ := box_corners_nearest 6370997 (by norm_num) geod hg (-60) 50 (-20) 30 (3 * ls) lt (by omega) hlt hb ⟨.ofC X1, .ofC Y1, g1⟩ xr
    (by rw [Nat.one_mul] at xc; exact xc) (fun i j hi hj => (pt i j hi hj).trans (pos4 i j hi hj).1)
  refine ⟨geod, _, Spec.onDict ⟨false, none, none, none, none, none, none, -60, 50, -20, 30, 2, 3⟩ ⟨.ofC X1, .ofC Y1, g1⟩, _, ⟨.ofC X1, .ofC Y1, g1⟩, dict, g1, X1, Y1,
    hg, hsrc, NArr.ofC_wf _, rfl, rfl, h1, hX1, hY1, ?_, readSource_onDict _ _ _ XC1 hXC1, NArr.ofC_wf _, rfl, rfl, by rw [Nat.one_mul]; exact u1, u2, rfl⟩
  intro x y hx hy
  rw [given x y (by omega) (by omega), given (x + 1) y (by omega) (by omega), given (x + 1) (y + 1) (by omega) (by omega), given x (y + 1) (by omega) (by omega)]
  exact convex_small (cornerOfBox_convex hb 3 1) x y hx hy

/-- An equatorial box for `C133_order_matters`. -/
example : Spec.NorthWestBox (-30) 45 60 0 := by
  refine ⟨?_, ?_, by norm_num, 0, by norm_num, by norm_num⟩ <;> rw [abs_lt] <;> norm_num

end SG
