import Verif.Lemmas.SpherePatch
import Mathlib.Analysis.Real.Pi.Bounds
/-! # C102: areas in a `mkgrid` grid (exact arithmetic, sphere) -/

set_option linter.unusedSectionVars false
namespace SG
open Real

/-! ## Specification -/

namespace Spec
/-- A box as `mkgrid` documents it: first corner north-west, second corner south-east; less than half a turn wide, poles excluded. -/
structure NorthWestBox (lon1 lat1 lon2 lat2 : ℝ) : Prop where
  north : |lat1| < 90
  south : |lat2| < 90
  up : lat2 < lat1
  east : ∃ z : ℤ, 0 < lon2 - lon1 - 360 * z ∧ lon2 - lon1 - 360 * z < 180

/-- Area of the quadrilateral `ABCD` of the unit sphere (Girard). -/
noncomputable def quadArea (A B C D : V3 ℝ) : ℝ := excess A B C + excess A C D

/-- Mean length of the half-cell edges in x. -/
noncomputable def meanHalfWidth (R lon1 lat1 lon2 lat2 : ℝ) (m n : Nat) : ℝ :=
  (∑ a ∈ Finset.range (2 * m), ∑ b ∈ Finset.range (2 * n + 1),
    R * arccos (inner3 (boxPoint lon1 lat1 lon2 lat2 (a / (2 * m : Nat)) (b / (2 * n : Nat)))
      (boxPoint lon1 lat1 lon2 lat2 ((a + 1 : Nat) / (2 * m : Nat)) (b / (2 * n : Nat))))) / (2 * m * (2 * n + 1) : Nat)

/-- Mean length of the half-cell edges in y. -/
noncomputable def meanHalfHeight (R lon1 lat1 lon2 lat2 : ℝ) (m n : Nat) : ℝ :=
  (∑ a ∈ Finset.range (2 * m + 1), ∑ b ∈ Finset.range (2 * n),
    R * arccos (inner3 (boxPoint lon1 lat1 lon2 lat2 (a / (2 * m : Nat)) (b / (2 * n : Nat)))
      (boxPoint lon1 lat1 lon2 lat2 (a / (2 * m : Nat)) ((b + 1 : Nat) / (2 * n : Nat))))) / ((2 * m + 1) * (2 * n) : Nat)
end Spec

/-! ## The corners -/

theorem triple_points (l1 a l2 b l3 c : ℝ) : Spec.triple (Spec.point (l1, a)) (Spec.point (l2, b)) (Spec.point (l3, c)) =
    cos (Spec.rad a) * cos (Spec.rad b) * sin (Spec.rad c) * sin (Spec.rad l2 - Spec.rad l1) +
    cos (Spec.rad b) * cos (Spec.rad c) * sin (Spec.rad a) * sin (Spec.rad l3 - Spec.rad l2) +
    cos (Spec.rad c) * cos (Spec.rad a) * sin (Spec.rad b) * sin (Spec.rad l1 - Spec.rad l3) := by
  rw [sin_sub, sin_sub, sin_sub]
  unfold Spec.triple Spec.point
  dsimp only
  ring

theorem box_of_northWest {lon1 lat1 lon2 lat2 : ℝ} (hb : Spec.NorthWestBox lon1 lat1 lon2 lat2) : Spec.Box lon1 lat1 lon2 lat2 := by
  obtain ⟨h1, h2, -, z, z0, z1⟩ := hb
  exact ⟨h1, h2, z, by rw [abs_lt]; constructor <;> linarith⟩

theorem box_patch {lon1 lat1 lon2 lat2 : ℝ} (hb : Spec.NorthWestBox lon1 lat1 lon2 lat2) :
    ∃ h, Patch h (Spec.point (lon1, lat2)) (Spec.point (lon2, lat2)) (Spec.point (lon2, lat1)) (Spec.point (lon1, lat1)) := by
  obtain ⟨h, h0, -, hh⟩ := box_hemi (box_of_northWest hb)
  obtain ⟨n1, n2, up, z, z0, z1⟩ := hb
  have hpi := Real.pi_pos
  obtain ⟨a1, a2⟩ := abs_lt.1 n1
  obtain ⟨b1, b2⟩ := abs_lt.1 n2
  have sL : 0 < sin (Spec.rad lon2 - Spec.rad lon1) := by
    rw [← sin_sub_int_mul_two_pi _ z]
    apply sin_pos_of_pos_of_lt_pi
    · unfold Spec.rad; nlinarith
    · unfold Spec.rad; nlinarith
  have sL' : sin (Spec.rad lon1 - Spec.rad lon2) = - sin (Spec.rad lon2 - Spec.rad lon1) := by rw [← sin_neg]; congr 1; ring
  have c1 : 0 < cos (Spec.rad lat1) := by
    apply cos_pos_of_mem_Ioo; unfold Spec.rad; constructor <;> nlinarith
  have c2 : 0 < cos (Spec.rad lat2) := by
    apply cos_pos_of_mem_Ioo; unfold Spec.rad; constructor <;> nlinarith
  have sD : 0 < sin (Spec.rad lat1) * cos (Spec.rad lat2) - cos (Spec.rad lat1) * sin (Spec.rad lat2) := by
    rw [← sin_sub]
    apply sin_pos_of_pos_of_lt_pi
    · unfold Spec.rad; nlinarith
    · unfold Spec.rad; nlinarith
  refine ⟨h, h0, ⟨point_unit _, hh _ _ (.inl rfl) (.inr rfl)⟩, ⟨point_unit _, hh _ _ (.inr rfl) (.inr rfl)⟩,
    ⟨point_unit _, hh _ _ (.inr rfl) (.inl rfl)⟩, ⟨point_unit _, hh _ _ (.inl rfl) (.inl rfl)⟩, ?_, ?_, ?_, ?_⟩ <;>
    rw [triple_points] <;> simp only [sub_self, sin_zero, mul_zero, add_zero, zero_add, sL'] <;>
    generalize sin (Spec.rad lon2 - Spec.rad lon1) = L at * <;>
    generalize sin (Spec.rad lat1) = s1 at * <;> generalize sin (Spec.rad lat2) = s2 at * <;>
    generalize cos (Spec.rad lat1) = k1 at * <;> generalize cos (Spec.rad lat2) = k2 at *
  · have : 0 < k2 * L * (s1 * k2 - k1 * s2) := by positivity
    linarith
  · have : 0 < k2 * L * (s1 * k2 - k1 * s2) := by positivity
    linarith
  · have : 0 < k1 * L * (s1 * k2 - k1 * s2) := by positivity
    linarith
  · have : 0 < k1 * L * (s1 * k2 - k1 * s2) := by positivity
    linarith

/-- Neighbouring points are different. -/
theorem patch_width {h SW SE NE NW : V3 ℝ} (hp : Patch h SW SE NE NW) (s s' t : ℝ) (h0 : 0 ≤ s) (h1 : s < s') (h2 : s' ≤ 1) (t0 : 0 ≤ t) (t1 : t ≤ 1) :
    Spec.inner3 (patchPoint SW SE NE NW s t) (patchPoint SW SE NE NW s' t) < 1 := by
  have u := fun x y (x0 : 0 ≤ x) (x1 : x ≤ 1) (y0 : 0 ≤ y) (y1 : y ≤ 1) => (patch_inside hp x y x0 x1 y0 y1).1
  rcases t1.lt_or_eq with l | l
  · exact inner_lt_one_of_det _ _ _ (u s t h0 (by linarith) t0 t1) (u s' t (by linarith) h2 t0 t1) (u s' 1 (by linarith) h2 (by norm_num) (le_refl _))
      (ne_of_gt (patch_turns hp s s' t 1 h0 h1 h2 t0 l (le_refl _)).1)
  · subst l
    rw [inner3_comm]
    refine inner_lt_one_of_det _ _ (patchPoint SW SE NE NW s 0) (u s' 1 (by linarith) h2 t0 t1) (u s 1 h0 (by linarith) t0 t1)
      (u s 0 h0 (by linarith) (le_refl _) (by norm_num)) ?_
    rw [triple_rot]
    exact ne_of_gt (patch_turns hp s s' 0 1 h0 h1 h2 (le_refl _) (by norm_num) (le_refl _)).2

theorem patch_height {h SW SE NE NW : V3 ℝ} (hp : Patch h SW SE NE NW) (s t t' : ℝ) (h0 : 0 ≤ s) (h1 : s ≤ 1) (t0 : 0 ≤ t) (t1 : t < t') (t2 : t' ≤ 1) :
    Spec.inner3 (patchPoint SW SE NE NW s t) (patchPoint SW SE NE NW s t') < 1 := by
  have u := fun x y (x0 : 0 ≤ x) (x1 : x ≤ 1) (y0 : 0 ≤ y) (y1 : y ≤ 1) => (patch_inside hp x y x0 x1 y0 y1).1
  rcases h1.lt_or_eq with l | l
  · rw [inner3_comm]
    refine inner_lt_one_of_det _ _ (patchPoint SW SE NE NW 1 t') (u s t' h0 h1 (by linarith) t2) (u s t h0 h1 t0 (by linarith))
      (u 1 t' (by norm_num) (le_refl _) (by linarith) t2) ?_
    rw [← triple_rot]
    exact ne_of_gt (patch_turns hp s 1 t t' h0 l (le_refl _) t0 t1 t2).2
  · subst l
    refine inner_lt_one_of_det _ _ (patchPoint SW SE NE NW 0 t) (u 1 t h0 h1 t0 (by linarith)) (u 1 t' h0 h1 (by linarith) t2)
      (u 0 t (le_refl _) (by norm_num) t0 (by linarith)) ?_
    rw [triple_rot]
    exact ne_of_gt (patch_turns hp 0 1 t t' (le_refl _) (by norm_num) (le_refl _) t0 t1 t2).1

/-! ## Which formula is used -/

theorem list_sum_range (f : Nat → ℝ) (N : Nat) : ((List.range N).map f).sum = ∑ b ∈ Finset.range N, f b := by
  induction N with
  | zero => rfl
  | succ N ih => rw [List.range_succ, List.map_append, List.sum_append, ih, Finset.sum_range_succ]; simp

theorem flat_sum (f : Nat → Nat → ℝ) (M N : Nat) :
    ((List.range M).flatMap fun a => (List.range N).map fun b => f a b).sum = ∑ a ∈ Finset.range M, ∑ b ∈ Finset.range N, f a b ∧
    ((List.range M).flatMap fun a => (List.range N).map fun b => f a b).length = M * N := by
  induction M with
  | zero => simp
  | succ M ih =>
    rw [List.range_succ, List.flatMap_append, List.sum_append, List.length_append, ih.1, ih.2, Finset.sum_range_succ]
    constructor
    · simp [list_sum_range]
    · simp [Nat.add_mul]

theorem flat_mean (f : Nat → Nat → ℝ) (M N : Nat) (h : ∀ a b, a < M → b < N → f a b ≠ 0) :
    PyFloat.mean (((List.range M).flatMap fun a => (List.range N).map fun b => f a b).filter fun x => !PyFloat.isZero x) =
      (∑ a ∈ Finset.range M, ∑ b ∈ Finset.range N, f a b) / (M * N : Nat) := by
  have e : (((List.range M).flatMap fun a => (List.range N).map fun b => f a b).filter fun x => !PyFloat.isZero x) =
      (List.range M).flatMap fun a => (List.range N).map fun b => f a b := by
    rw [List.filter_eq_self]
    intro x hx
    simp only [List.mem_flatMap, List.mem_map, List.mem_range] at hx
    obtain ⟨a, ha, b, hb, rfl⟩ := hx
    rw [Bool.not_eq_true', Bool.eq_false_iff]
    intro hz
    exact h a b ha hb ((isZero_r _).1 hz)
  rw [e]
  obtain ⟨e1, e2⟩ := flat_sum f M N
  show List.sum _ / (List.length _ : ℝ) = _
  rw [e1, e2]

/-- The rule of the area formula, for a box. -/
theorem box_usePlanar (R : ℝ) (hR : 0 < R) (geod : Geod ℝ) (hg : Spec.IsSphere R geod) (lon1 lat1 lon2 lat2 : ℝ) (m n : Nat) (hm : 1 ≤ m) (hn : 1 ≤ n)
    (hb : Spec.NorthWestBox lon1 lat1 lon2 lat2) (P : Nat → Nat → ℝ × ℝ)
    (hP : ∀ a b, a ≤ 2 * m → b ≤ 2 * n → Spec.point (P a b) = Spec.boxPoint lon1 lat1 lon2 lat2 (a / (2 * m : Nat)) (b / (2 * n : Nat))) :
    (⟨m, n, fun a b => P a.toNat b.toNat⟩ : Spec.Tile ℝ).usePlanar geod.inv = true ↔
      Spec.meanHalfWidth R lon1 lat1 lon2 lat2 m n < 10000 ∧ Spec.meanHalfHeight R lon1 lat1 lon2 lat2 m n < 10000 := by
  obtain ⟨h, hp⟩ := box_patch hb
  have frac : ∀ (k N : Nat), 1 ≤ N → k < N → ((k : ℝ) / N) < ((k + 1 : Nat) : ℝ) / N := by
    intro k N hN hk
    have : (0 : ℝ) < N := by exact_mod_cast hN
    apply div_lt_div_of_pos_right _ this
    push_cast; linarith
  have wpos : ∀ p q : V3 ℝ, Spec.inner3 p q < 1 → R * arccos (Spec.inner3 p q) ≠ 0 := by
    intro p q hlt
    have : 0 < arccos (Spec.inner3 p q) := arccos_pos.2 hlt
    positivity
  have ex : ∀ a b : Nat, a < 2 * m → b < 2 * n + 1 → (⟨m, n, fun a b => P a.toNat b.toNat⟩ : Spec.Tile ℝ).subX geod.inv (a : Int) (b : Int) =
      R * arccos (Spec.inner3 (Spec.boxPoint lon1 lat1 lon2 lat2 (a / (2 * m : Nat)) (b / (2 * n : Nat)))
        (Spec.boxPoint lon1 lat1 lon2 lat2 ((a + 1 : Nat) / (2 * m : Nat)) (b / (2 * n : Nat)))) := by
    intro a b ha hb
    unfold Spec.Tile.subX
    dsimp only
    rw [if_pos (by omega), Int.toNat_natCast, Int.toNat_natCast, show ((a : Int) + 1).toNat = a + 1 by omega, ← hP a b (by omega) (by omega),
      ← hP (a + 1) b (by omega) (by omega)]
    exact hg.inv (P a b) (P (a + 1) b)
  have ey : ∀ a b : Nat, a < 2 * m + 1 → b < 2 * n → (⟨m, n, fun a b => P a.toNat b.toNat⟩ : Spec.Tile ℝ).subY geod.inv (a : Int) (b : Int) =
      R * arccos (Spec.inner3 (Spec.boxPoint lon1 lat1 lon2 lat2 (a / (2 * m : Nat)) (b / (2 * n : Nat)))
        (Spec.boxPoint lon1 lat1 lon2 lat2 (a / (2 * m : Nat)) ((b + 1 : Nat) / (2 * n : Nat)))) := by
    intro a b ha hb
    unfold Spec.Tile.subY
    dsimp only
    rw [if_pos (by omega), Int.toNat_natCast, Int.toNat_natCast, show ((b : Int) + 1).toNat = b + 1 by omega, ← hP a b (by omega) (by omega),
      ← hP a (b + 1) (by omega) (by omega)]
    exact hg.inv (P a b) (P a (b + 1))
  have mx := flat_mean (fun a b => (⟨m, n, fun a b => P a.toNat b.toNat⟩ : Spec.Tile ℝ).subX geod.inv (a : Int) (b : Int)) (2 * m) (2 * n + 1) (by
    intro a b ha hb
    rw [ex a b ha hb]
    exact wpos _ _ (patch_width hp _ _ _ (nat_div_unit (by omega)).1 (frac a (2 * m) (by omega) ha) (nat_div_unit (by omega)).2 (nat_div_unit (by omega)).1
      (nat_div_unit (by omega)).2))
  have my := flat_mean (fun a b => (⟨m, n, fun a b => P a.toNat b.toNat⟩ : Spec.Tile ℝ).subY geod.inv (a : Int) (b : Int)) (2 * m + 1) (2 * n) (by
    intro a b ha hb
    rw [ey a b ha hb]
    exact wpos _ _ (patch_height hp _ _ _ (nat_div_unit (by omega)).1 (nat_div_unit (by omega)).2 (nat_div_unit (by omega)).1 (frac b (2 * n) (by omega) hb)
      (nat_div_unit (by omega)).2))
  have sx : (∑ a ∈ Finset.range (2 * m), ∑ b ∈ Finset.range (2 * n + 1), (⟨m, n, fun a b => P a.toNat b.toNat⟩ : Spec.Tile ℝ).subX geod.inv (a : Int) (b : Int)) /
      (2 * m * (2 * n + 1) : Nat) = Spec.meanHalfWidth R lon1 lat1 lon2 lat2 m n := by
    unfold Spec.meanHalfWidth
    congr 1
    refine Finset.sum_congr rfl fun a ha => Finset.sum_congr rfl fun b hb => ?_
    rw [Finset.mem_range] at ha hb
    exact ex a b ha hb
  have sy : (∑ a ∈ Finset.range (2 * m + 1), ∑ b ∈ Finset.range (2 * n), (⟨m, n, fun a b => P a.toNat b.toNat⟩ : Spec.Tile ℝ).subY geod.inv (a : Int) (b : Int)) /
      ((2 * m + 1) * (2 * n) : Nat) = Spec.meanHalfHeight R lon1 lat1 lon2 lat2 m n := by
    unfold Spec.meanHalfHeight
    congr 1
    refine Finset.sum_congr rfl fun a ha => Finset.sum_congr rfl fun b hb => ?_
    rw [Finset.mem_range] at ha hb
    exact ey a b ha hb
  rw [sx] at mx
  rw [sy] at my
  unfold Spec.Tile.usePlanar Spec.Tile.xLengths Spec.Tile.yLengths
  dsimp only
  rw [mx, my, Bool.and_eq_true]
  show decide (_ < (10000 : ℝ)) = true ∧ decide (_ < (10000 : ℝ)) = true ↔ _
  rw [decide_eq_true_iff, decide_eq_true_iff]

/-! ## Total area -/

/-- Sums over quarter cells. -/
theorem sum_quarters (m n : Nat) (f : Nat → Nat → ℝ) :
    ∑ i ∈ Finset.range m, ∑ j ∈ Finset.range n, (f (2 * i) (2 * j) + f (2 * i + 1) (2 * j) + f (2 * i + 1) (2 * j + 1) + f (2 * i) (2 * j + 1)) =
      ∑ a ∈ Finset.range (2 * m), ∑ b ∈ Finset.range (2 * n), f a b := by
  have one : ∀ (g : Nat → ℝ) (n : Nat), ∑ j ∈ Finset.range (2 * n), g j = ∑ j ∈ Finset.range n, (g (2 * j) + g (2 * j + 1)) := by
    intro g n
    induction n with
    | zero => rfl
    | succ n ih => rw [show 2 * (n + 1) = 2 * n + 1 + 1 by ring, Finset.sum_range_succ, Finset.sum_range_succ, ih, Finset.sum_range_succ]; ring
  rw [one]
  refine Finset.sum_congr rfl fun i _ => ?_
  rw [one, one, ← Finset.sum_add_distrib]
  refine Finset.sum_congr rfl fun j _ => ?_
  ring

theorem sumOrZero_pos4 {a b c d : ℝ} (ha : 0 < a) (hb : 0 < b) (hc : 0 < c) (hd : 0 < d) : Spec.sumOrZero [a, b, c, d] = a + b + c + d := by
  unfold Spec.sumOrZero
  rw [if_neg]
  · rfl
  · simp only [List.any_cons, List.any_nil, Bool.or_false, Bool.or_eq_true, isZero_r]
    rintro (h | h | h | h) <;> linarith

/-- **C102**: in a grid `mkgrid` makes on a sphere, cells large enough for the spherical formula (mean length of the half-cell edges in x or in y at
least 10 km), all cell areas RAC are positive, and between any two columns of corners `i0 < i1` they add up to the area of the quadrilateral
bounded by those two columns and the southern and northern side: there are no gaps or overlaps, whatever the number of rows. -/
theorem C102_strips (R : ℝ) (hR : 0 < R) (geod : Geod ℝ) (hg : Spec.IsSphere R geod) (lon1 lat1 lon2 lat2 : ℝ) (m n : Nat) (hm : 1 ≤ m) (hn : 1 ≤ n)
    (hb : Spec.NorthWestBox lon1 lat1 lon2 lat2)
    (large : 10000 ≤ Spec.meanHalfWidth R lon1 lat1 lon2 lat2 m n ∨ 10000 ≤ Spec.meanHalfHeight R lon1 lat1 lon2 lat2 m n) : ∃ g A,
      mkgrid geod lon1 lat1 lon2 lat2 (m : Int) (n : Int) = .ok (g, (m : Int), (n : Int)) ∧ g .RAC = .arr A ∧
      (∀ i j, i < m → j < n → 0 < A.get i j) ∧
      ∀ i0 i1, i0 < i1 → i1 ≤ m → ∑ i ∈ Finset.Ico i0 i1, ∑ j ∈ Finset.range n, A.get i j =
        R ^ 2 * Spec.quadArea (Spec.boxPoint lon1 lat1 lon2 lat2 (i0 / m) 0) (Spec.boxPoint lon1 lat1 lon2 lat2 (i1 / m) 0)
          (Spec.boxPoint lon1 lat1 lon2 lat2 (i1 / m) 1) (Spec.boxPoint lon1 lat1 lon2 lat2 (i0 / m) 1) := by
  obtain ⟨P, g, eq, hP, hv⟩ := mkgrid_sphere R geod hg lon1 lat1 lon2 lat2 m n hm hn (box_of_northWest hb)
  have up : (⟨m, n, fun a b => P a.toNat b.toNat⟩ : Spec.Tile ℝ).usePlanar geod.inv = false := by
    rw [Bool.eq_false_iff]
    intro h
    obtain ⟨h1, h2⟩ := (box_usePlanar R hR geod hg lon1 lat1 lon2 lat2 m n hm hn hb P fun a b ha hb => (hP a b ha hb).1).1 h
    rcases large with l | l <;> linarith
  rw [up] at hv
  obtain ⟨A, hA, v⟩ := hv .RAC
  obtain ⟨h, hp⟩ := box_patch hb
  have hm' : (0 : ℝ) < m := by exact_mod_cast hm
  have hn' : (0 : ℝ) < n := by exact_mod_cast hn
  have R2 : 0 < R * R := by positivity
  -- quarter cells
  have quarter : ∀ a b : Nat, a < 2 * m → b < 2 * n → (⟨m, n, fun a b => P a.toNat b.toNat⟩ : Spec.Tile ℝ).subA (Spec.quad geod false) (a : Int) (b : Int) =
      squadCell (Spec.boxPoint lon1 lat1 lon2 lat2 (a / (2 * m : Nat)) (b / (2 * n : Nat)))
        (Spec.boxPoint lon1 lat1 lon2 lat2 ((a + 1 : Nat) / (2 * m : Nat)) (b / (2 * n : Nat)))
        (Spec.boxPoint lon1 lat1 lon2 lat2 ((a + 1 : Nat) / (2 * m : Nat)) ((b + 1 : Nat) / (2 * n : Nat)))
        (Spec.boxPoint lon1 lat1 lon2 lat2 (a / (2 * m : Nat)) ((b + 1 : Nat) / (2 * n : Nat))) * (R * R) := by
    intro a b ha hb
    unfold Spec.Tile.subA
    dsimp only
    rw [if_pos (by omega), quad_point R geod hg, if_neg Bool.false_ne_true, Int.toNat_natCast, Int.toNat_natCast, show ((a : Int) + 1).toNat = a + 1 by omega,
      show ((b : Int) + 1).toNat = b + 1 by omega, (hP a b (by omega) (by omega)).1, (hP (a + 1) b (by omega) (by omega)).1,
      (hP (a + 1) (b + 1) (by omega) (by omega)).1, (hP a (b + 1) (by omega) (by omega)).1]
  have frac : ∀ (k N : Nat), 1 ≤ N → ((k : ℝ) / N) < ((k + 1 : Nat) : ℝ) / N := by
    intro k N hN
    have : (0 : ℝ) < N := by exact_mod_cast hN
    apply div_lt_div_of_pos_right _ this
    push_cast; linarith
  have tot := fun (i0 i1 : Nat) (h01 : i0 < i1) (h1 : i1 ≤ m) => patch_total hp (2 * (i1 - i0)) (2 * n) (by omega) (by omega)
    (fun k => ((2 * i0 + k : Nat) : ℝ) / (2 * m : Nat)) (fun k => ((k : Nat) : ℝ) / (2 * n : Nat)) (by positivity)
    (fun k _ => frac (2 * i0 + k) (2 * m) (by omega)) (nat_div_unit (by omega)).2 (by simp) (fun k _ => frac k (2 * n) (by omega))
    (div_self (by
      have : 2 * n ≠ 0 := by omega
      exact_mod_cast this))
  have pos : ∀ a b : Nat, a < 2 * m → b < 2 * n → 0 < (⟨m, n, fun a b => P a.toNat b.toNat⟩ : Spec.Tile ℝ).subA (Spec.quad geod false) (a : Int) (b : Int) := by
    intro a b ha hb
    rw [quarter a b ha hb]
    have := (tot 0 m (by omega) (le_refl _)).1 a b (by omega) hb
    simp only [Nat.mul_zero, Nat.zero_add] at this
    exact mul_pos this R2
  have entry : ∀ i j, i < m → j < n → A.get i j =
      (⟨m, n, fun a b => P a.toNat b.toNat⟩ : Spec.Tile ℝ).subA (Spec.quad geod false) (2 * i : Nat) (2 * j : Nat) +
      (⟨m, n, fun a b => P a.toNat b.toNat⟩ : Spec.Tile ℝ).subA (Spec.quad geod false) (2 * i + 1 : Nat) (2 * j : Nat) +
      (⟨m, n, fun a b => P a.toNat b.toNat⟩ : Spec.Tile ℝ).subA (Spec.quad geod false) (2 * i + 1 : Nat) (2 * j + 1 : Nat) +
      (⟨m, n, fun a b => P a.toNat b.toNat⟩ : Spec.Tile ℝ).subA (Spec.quad geod false) (2 * i : Nat) (2 * j + 1 : Nat) := by
    intro i j hi hj
    rw [v i j (by simp only [Spec.nrows]; omega) (by simp only [Spec.ncols]; omega)]
    have e1 : Spec.halfI .RAC i = ((2 * i + 1 : Nat) : Int) := by simp only [Spec.halfI, Spec.nrows]; simp
    have e2 : Spec.halfJ .RAC j = ((2 * j + 1 : Nat) : Int) := by simp only [Spec.halfJ, Spec.ncols]; simp
    unfold Spec.Tile.entry
    simp only [Spec.kind, e1, e2]
    rw [show ((2 * i + 1 : Nat) : Int) - 1 = ((2 * i : Nat) : Int) by omega, show ((2 * j + 1 : Nat) : Int) - 1 = ((2 * j : Nat) : Int) by omega]
    exact sumOrZero_pos4 (pos _ _ (by omega) (by omega)) (pos _ _ (by omega) (by omega)) (pos _ _ (by omega) (by omega)) (pos _ _ (by omega) (by omega))
  refine ⟨g, A, eq, hA, fun i j hi hj => ?_, fun i0 i1 h01 h1 => ?_⟩
  · rw [entry i j hi hj]
    have := pos (2 * i) (2 * j) (by omega) (by omega)
    have := pos (2 * i + 1) (2 * j) (by omega) (by omega)
    have := pos (2 * i + 1) (2 * j + 1) (by omega) (by omega)
    have := pos (2 * i) (2 * j + 1) (by omega) (by omega)
    linarith
  · rw [Finset.sum_Ico_eq_sum_range]
    have e : ∑ k ∈ Finset.range (i1 - i0), ∑ j ∈ Finset.range n, A.get (i0 + k) j =
        ∑ a ∈ Finset.range (2 * (i1 - i0)), ∑ b ∈ Finset.range (2 * n),
          (⟨m, n, fun a b => P a.toNat b.toNat⟩ : Spec.Tile ℝ).subA (Spec.quad geod false) (2 * i0 + a : Nat) (b : Nat) := by
      rw [← sum_quarters]
      refine Finset.sum_congr rfl fun k hk => Finset.sum_congr rfl fun j hj => ?_
      rw [Finset.mem_range] at hk hj
      rw [entry (i0 + k) j (by omega) hj, Nat.mul_add]
      rfl
    rw [e]
    have e2 : ∑ a ∈ Finset.range (2 * (i1 - i0)), ∑ b ∈ Finset.range (2 * n),
          (⟨m, n, fun a b => P a.toNat b.toNat⟩ : Spec.Tile ℝ).subA (Spec.quad geod false) (2 * i0 + a : Nat) (b : Nat) =
        (∑ a ∈ Finset.range (2 * (i1 - i0)), ∑ b ∈ Finset.range (2 * n),
          squadCell (Spec.boxPoint lon1 lat1 lon2 lat2 ((2 * i0 + a : Nat) / (2 * m : Nat)) (b / (2 * n : Nat)))
          (Spec.boxPoint lon1 lat1 lon2 lat2 ((2 * i0 + (a + 1) : Nat) / (2 * m : Nat)) (b / (2 * n : Nat)))
          (Spec.boxPoint lon1 lat1 lon2 lat2 ((2 * i0 + (a + 1) : Nat) / (2 * m : Nat)) ((b + 1 : Nat) / (2 * n : Nat)))
          (Spec.boxPoint lon1 lat1 lon2 lat2 ((2 * i0 + a : Nat) / (2 * m : Nat)) ((b + 1 : Nat) / (2 * n : Nat)))) * (R * R) := by
      rw [Finset.sum_mul]
      refine Finset.sum_congr rfl fun a ha => ?_
      rw [Finset.sum_mul]
      refine Finset.sum_congr rfl fun b hb => ?_
      rw [Finset.mem_range] at ha hb
      exact quarter (2 * i0 + a) b (by omega) hb
    rw [e2]
    have t := (tot i0 i1 h01 h1).2
    have f0 : ((2 * i0 + 0 : Nat) : ℝ) / (2 * m : Nat) = i0 / m := by push_cast; field_simp; ring
    have f1 : ((2 * i0 + 2 * (i1 - i0) : Nat) : ℝ) / (2 * m : Nat) = i1 / m := by
      rw [show 2 * i0 + 2 * (i1 - i0) = 2 * i1 by omega]; push_cast; field_simp
    rw [f0, f1] at t
    have s0 : 0 ≤ (i0 : ℝ) / m ∧ (i0 : ℝ) / m ≤ 1 := nat_div_unit (by omega)
    have s1 : 0 ≤ (i1 : ℝ) / m ∧ (i1 : ℝ) / m ≤ 1 := nat_div_unit (by omega)
    have S0 := patch_S hp _ s0.1 s0.2
    have S1 := patch_S hp _ s1.1 s1.2
    have N0 := patch_N hp _ s0.1 s0.2
    have N1 := patch_N hp _ s1.1 s1.2
    have q0 : ∀ x, Spec.boxPoint lon1 lat1 lon2 lat2 x 0 = Spec.between (Spec.point (lon1, lat2)) (Spec.point (lon2, lat2)) x := fun x => between_zero
    have q1 : Spec.boxPoint lon1 lat1 lon2 lat2 (i0 / m) 1 = Spec.between (Spec.point (lon1, lat1)) (Spec.point (lon2, lat1)) (i0 / m) :=
      between_one S0.1 N0.1 (hemi_lt_pi S0.1 N0.1 S0.2 N0.2)
    have q2 : Spec.boxPoint lon1 lat1 lon2 lat2 (i1 / m) 1 = Spec.between (Spec.point (lon1, lat1)) (Spec.point (lon2, lat1)) (i1 / m) :=
      between_one S1.1 N1.1 (hemi_lt_pi S1.1 N1.1 S1.2 N1.2)
    rw [q0, q0, q1, q2]
    have l : (i0 : ℝ) / m < i1 / m := by
      apply div_lt_div_of_pos_right _ hm'
      exact_mod_cast h01
    obtain ⟨t1, -, -, t4⟩ := patch_strip hp _ _ s0.1 l s1.2
    have fin := C15_sum_of_excesses _ _ _ _ S0.1 S1.1 N1.1 N0.1 (nonDeg_of_triple S0.1 S1.1 N1.1 S0.2 S1.2 N1.2 t1)
      (nonDeg_of_triple S0.1 N1.1 N0.1 S0.2 N1.2 N0.2 t4)
    unfold Spec.quadArea
    rw [← fin, ← t]
    rw [pow_two, mul_comm (R * R)]
    rfl

/-- **C102**, the whole grid: the cell areas RAC add up to the area of the quadrilateral with the four corners of the box (sides great circles),
whatever the numbers of cells. -/
theorem C102_total_area (R : ℝ) (hR : 0 < R) (geod : Geod ℝ) (hg : Spec.IsSphere R geod) (lon1 lat1 lon2 lat2 : ℝ) (m n : Nat) (hm : 1 ≤ m)
    (hn : 1 ≤ n) (hb : Spec.NorthWestBox lon1 lat1 lon2 lat2)
    (large : 10000 ≤ Spec.meanHalfWidth R lon1 lat1 lon2 lat2 m n ∨ 10000 ≤ Spec.meanHalfHeight R lon1 lat1 lon2 lat2 m n) : ∃ g A,
      mkgrid geod lon1 lat1 lon2 lat2 (m : Int) (n : Int) = .ok (g, (m : Int), (n : Int)) ∧ g .RAC = .arr A ∧
      ∑ i ∈ Finset.range m, ∑ j ∈ Finset.range n, A.get i j = R ^ 2 * Spec.quadArea (Spec.point (lon1, lat2)) (Spec.point (lon2, lat2))
        (Spec.point (lon2, lat1)) (Spec.point (lon1, lat1)) := by
  obtain ⟨g, A, e, hA, -, tot⟩ := C102_strips R hR geod hg lon1 lat1 lon2 lat2 m n hm hn hb large
  refine ⟨g, A, e, hA, ?_⟩
  have t := tot 0 m hm (le_refl _)
  obtain ⟨h, hp⟩ := box_patch hb
  have hm' : (m : ℝ) ≠ 0 := by
    have : m ≠ 0 := by omega
    exact_mod_cast this
  rw [Nat.Ico_zero_eq_range, Nat.cast_zero, zero_div, div_self hm'] at t
  rw [t]
  have w : ∀ p q : V3 ℝ, (Spec.OnSphere p ∧ 0 < Spec.inner3 h p) → (Spec.OnSphere q ∧ 0 < Spec.inner3 h q) → Spec.between p q 1 = q :=
    fun p q a b => between_one a.1 b.1 (hemi_lt_pi a.1 b.1 a.2 b.2)
  unfold Spec.boxPoint
  rw [between_zero, between_zero, between_zero, w _ _ hp.sw hp.se, w _ _ hp.nw hp.ne, between_zero, w _ _ hp.se hp.ne, w _ _ hp.sw hp.nw]

/-! ## When the cells are large enough -/

theorem between_inner {p q : V3 ℝ} (hp : Spec.OnSphere p) (hq : Spec.OnSphere q) (hs : sin (arccos (Spec.inner3 p q)) ≠ 0) (s t : ℝ) :
    Spec.inner3 (Spec.between p q s) (Spec.between p q t) = cos ((t - s) * arccos (Spec.inner3 p q)) := by
  have hb := inner_unit_bounds hp hq
  have hc := cos_arccos hb.1 hb.2
  unfold Spec.between
  generalize arccos (Spec.inner3 p q) = w at *
  dsimp only
  rw [if_neg hs, if_neg hs]
  have e1 : sin ((1 - t) * w) = sin w * cos (t * w) - cos w * sin (t * w) := by rw [← sin_sub]; congr 1; ring
  have e2 : sin ((1 - s) * w) = sin w * cos (s * w) - cos w * sin (s * w) := by rw [← sin_sub]; congr 1; ring
  have e3 : cos ((t - s) * w) = cos (t * w) * cos (s * w) + sin (t * w) * sin (s * w) := by rw [← cos_sub]; congr 1; ring
  have s1 := sin_sq_add_cos_sq w
  rw [e1, e2, e3]
  generalize sin (t * w) = S at *
  generalize cos (t * w) = C at *
  generalize sin (s * w) = S' at *
  generalize cos (s * w) = C' at *
  generalize sin w = u at *
  generalize cos w = c at *
  unfold Spec.OnSphere Spec.inner3 at *
  dsimp only
  field_simp
  have i1 : p.x * q.x = c - p.y * q.y - p.z * q.z := by linarith
  have i2 : p.x * p.x = 1 - p.y * p.y - p.z * p.z := by linarith
  have i3 : q.x * q.x = 1 - q.y * q.y - q.z * q.z := by linarith
  have u2 : u * u = 1 - c * c := by nlinarith
  linear_combination (C' * C * u ^ 2 - c * u * (C' * S + S' * C) + c ^ 2 * S' * S) * hp + S' * S * hq + (u * (C' * S + S' * C) - 2 * c * S' * S) * (-hc) - S' * S * s1

/-- If the western side alone is long enough, the spherical formula is used. -/
theorem C102_large (R : ℝ) (hR : 0 < R) (lon1 lat1 lon2 lat2 : ℝ) (m n : Nat) (hn : 1 ≤ n) (hb : Spec.NorthWestBox lon1 lat1 lon2 lat2)
    (hl : 10000 * ((2 * m + 1) * (2 * n)) ≤ R * Spec.rad (lat1 - lat2)) : 10000 ≤ Spec.meanHalfHeight R lon1 lat1 lon2 lat2 m n := by
  obtain ⟨n1, n2, up, -⟩ := hb
  obtain ⟨a1, a2⟩ := abs_lt.1 n1
  obtain ⟨b1, b2⟩ := abs_lt.1 n2
  have hpi := Real.pi_pos
  have hn' : (0 : ℝ) < (2 * n : Nat) := by
    have : 0 < 2 * n := by omega
    exact_mod_cast this
  have d0 : 0 < Spec.rad (lat1 - lat2) := by unfold Spec.rad; nlinarith
  have d1 : Spec.rad (lat1 - lat2) < π := by unfold Spec.rad; nlinarith
  have ang : arccos (Spec.inner3 (Spec.point (lon1, lat2)) (Spec.point (lon1, lat1))) = Spec.rad (lat1 - lat2) := by
    have : Spec.inner3 (Spec.point (lon1, lat2)) (Spec.point (lon1, lat1)) = cos (Spec.rad (lat1 - lat2)) := by
      have e : Spec.rad (lat1 - lat2) = Spec.rad lat1 - Spec.rad lat2 := by unfold Spec.rad; ring
      rw [e, cos_sub]
      unfold Spec.inner3 Spec.point
      dsimp only
      linear_combination (cos (Spec.rad lat1) * cos (Spec.rad lat2)) * sin_sq_add_cos_sq (Spec.rad lon1)
    rw [this, arccos_cos d0.le d1.le]
  have west : ∀ b : Nat, R * arccos (Spec.inner3 (Spec.boxPoint lon1 lat1 lon2 lat2 ((0 : Nat) / (2 * m : Nat)) (b / (2 * n : Nat)))
      (Spec.boxPoint lon1 lat1 lon2 lat2 ((0 : Nat) / (2 * m : Nat)) ((b + 1 : Nat) / (2 * n : Nat)))) = R * Spec.rad (lat1 - lat2) / (2 * n : Nat) := by
    intro b
    have z : ((0 : Nat) : ℝ) / (2 * m : Nat) = 0 := by simp
    rw [z]
    unfold Spec.boxPoint
    rw [between_zero, between_zero, between_inner (point_unit _) (point_unit _) (by rw [ang]; exact ne_of_gt (sin_pos_of_pos_of_lt_pi d0 d1)), ang]
    have e : (((b + 1 : Nat) : ℝ) / (2 * n : Nat) - (b : ℝ) / (2 * n : Nat)) * Spec.rad (lat1 - lat2) = Spec.rad (lat1 - lat2) / (2 * n : Nat) := by
      push_cast; field_simp; ring
    rw [e, arccos_cos (by positivity), mul_div_assoc]
    rw [div_le_iff₀ hn']
    have : (1 : ℝ) ≤ (2 * n : Nat) := by
      have : 1 ≤ 2 * n := by omega
      exact_mod_cast this
    nlinarith
  unfold Spec.meanHalfHeight
  have hd : (0 : ℝ) < ((2 * m + 1) * (2 * n) : Nat) := by
    have : 0 < (2 * m + 1) * (2 * n) := by positivity
    exact_mod_cast this
  rw [le_div_iff₀ hd, Finset.sum_range_succ']
  have rest : 0 ≤ ∑ a ∈ Finset.range (2 * m), ∑ b ∈ Finset.range (2 * n),
      R * arccos (Spec.inner3 (Spec.boxPoint lon1 lat1 lon2 lat2 ((a + 1 : Nat) / (2 * m : Nat)) (b / (2 * n : Nat)))
      (Spec.boxPoint lon1 lat1 lon2 lat2 ((a + 1 : Nat) / (2 * m : Nat)) ((b + 1 : Nat) / (2 * n : Nat)))) :=
    Finset.sum_nonneg fun a _ => Finset.sum_nonneg fun b _ => mul_nonneg hR.le (arccos_nonneg _)
  have first : ∑ b ∈ Finset.range (2 * n), R * arccos (Spec.inner3 (Spec.boxPoint lon1 lat1 lon2 lat2 ((0 : Nat) / (2 * m : Nat)) (b / (2 * n : Nat)))
      (Spec.boxPoint lon1 lat1 lon2 lat2 ((0 : Nat) / (2 * m : Nat)) ((b + 1 : Nat) / (2 * n : Nat)))) = R * Spec.rad (lat1 - lat2) := by
    rw [Finset.sum_congr rfl fun b _ => west b, Finset.sum_const, Finset.card_range, nsmul_eq_mul]
    field_simp
  rw [first]
  have hl' : 10000 * (((2 * m + 1) * (2 * n) : Nat) : ℝ) ≤ R * Spec.rad (lat1 - lat2) := by push_cast; exact hl
  linarith

/-- The north Atlantic box of C82, 20 degrees high: 4 by 2 cells and 8 by 6 cells have the same total area. -/
example : ∃ (geod : Geod ℝ) (g g' : Grid ℝ) (A A' : Mat ℝ), Spec.IsSphere 6370997 geod ∧
    mkgrid geod (-60) 50 (-20) 30 (4 : Nat) (2 : Nat) = .ok (g, 4, 2) ∧ mkgrid geod (-60) 50 (-20) 30 (8 : Nat) (6 : Nat) = .ok (g', 8, 6) ∧
    g .RAC = .arr A ∧ g' .RAC = .arr A' ∧
    ∑ i ∈ Finset.range 4, ∑ j ∈ Finset.range 2, A.get i j = ∑ i ∈ Finset.range 8, ∑ j ∈ Finset.range 6, A'.get i j := by
  obtain ⟨geod, hg⟩ := C80_sphere_exists 6370997
  have hb : Spec.NorthWestBox (-60) 50 (-20) 30 := by
    refine ⟨?_, ?_, by norm_num, 0, by norm_num, by norm_num⟩ <;> rw [abs_lt] <;> norm_num
  have hpi := Real.pi_gt_three
  obtain ⟨g, A, e, hA, t⟩ := C102_total_area 6370997 (by norm_num) geod hg (-60) 50 (-20) 30 4 2 (by norm_num) (by norm_num) hb
    (.inr (C102_large _ (by norm_num) _ _ _ _ 4 2 (by norm_num) hb (by unfold Spec.rad; norm_num; linarith)))
  obtain ⟨g', A', e', hA', t'⟩ := C102_total_area 6370997 (by norm_num) geod hg (-60) 50 (-20) 30 8 6 (by norm_num) (by norm_num) hb
    (.inr (C102_large _ (by norm_num) _ _ _ _ 8 6 (by norm_num) hb (by unfold Spec.rad; norm_num; linarith)))
  exact ⟨geod, g, g', A, A', hg, e, e', hA, hA', by rw [t, t']⟩

end SG
