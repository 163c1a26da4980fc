import Verif.Props.Sphere
/-! # C80-C82: the sphere (exact arithmetic)

`Spec.IsSphere` states what `pyproj.Geod(ellps='sphere')` is documented to do, in exact arithmetic. -/

set_option linter.unusedSectionVars false
namespace SG
open Real

namespace Spec
/-- The point of the unit sphere with the given longitude and latitude in degrees. -/
noncomputable def point (p : ℝ × ℝ) : V3 ℝ :=
  ⟨cos (rad p.1) * cos (rad p.2), sin (rad p.1) * cos (rad p.2), sin (rad p.2)⟩

/-- The point at angle `t` from `p` on the great circle through `p` with direction `u`. -/
noncomputable def arcAt (p u : V3 ℝ) (t : ℝ) : V3 ℝ :=
  ⟨cos t * p.x + sin t * u.x, cos t * p.y + sin t * u.y, cos t * p.z + sin t * u.z⟩

/-- Angle between two points. -/
noncomputable def angle (p q : ℝ × ℝ) : ℝ := arccos (inner3 (point p) (point q))

/-- Distances and subdivisions on a sphere of radius `R`: `inv` is the angle times the radius; `npts` returns points at equal steps along
a shortest great circle from `p` to `q`, longitudes between -180 and 180. -/
structure IsSphere (R : ℝ) (geod : Geod ℝ) : Prop where
  radius : geod.a = R
  inv : ∀ p q : ℝ × ℝ, distance geod p q = R * angle p q
  npts : ∀ (p q : ℝ × ℝ) (n : Nat), ∃ u : V3 ℝ, OnSphere u ∧ inner3 (point p) u = 0 ∧ arcAt (point p) u (angle p q) = point q ∧
    ∀ k, k < n → point (geod.npt p.1 p.2 q.1 q.2 n k) = arcAt (point p) u ((k + 1) / (n + 1) * angle p q) ∧
      -180 ≤ (geod.npt p.1 p.2 q.1 q.2 n k).1 ∧ (geod.npt p.1 p.2 q.1 q.2 n k).1 ≤ 180 ∧
      -90 ≤ (geod.npt p.1 p.2 q.1 q.2 n k).2 ∧ (geod.npt p.1 p.2 q.1 q.2 n k).2 ≤ 90
end Spec

theorem point_unit (p : ℝ × ℝ) : Spec.OnSphere (Spec.point p) := by
  unfold Spec.OnSphere Spec.inner3 Spec.point
  dsimp only
  nlinarith [sin_sq_add_cos_sq (Spec.rad p.1), sin_sq_add_cos_sq (Spec.rad p.2)]

theorem rad_add (x y : ℝ) : Spec.rad (x + y) = Spec.rad x + Spec.rad y := by unfold Spec.rad; ring
theorem rad_360 : Spec.rad 360 = 2 * π := by unfold Spec.rad; ring

theorem point_shift (p : ℝ × ℝ) : Spec.point (p.1 + 360, p.2) = Spec.point p := by
  unfold Spec.point
  dsimp only
  rw [rad_add, rad_360, cos_add_two_pi, sin_add_two_pi]

/-- Points on a great circle at angles `s` and `t`. -/
theorem along_inner (p u : V3 ℝ) (hp : Spec.OnSphere p) (hu : Spec.OnSphere u) (h : Spec.inner3 p u = 0) (s t : ℝ) :
    Spec.inner3 (Spec.arcAt p u s) (Spec.arcAt p u t) = cos (t - s) := by
  unfold Spec.OnSphere Spec.inner3 at *
  unfold Spec.arcAt
  dsimp only
  rw [cos_sub]
  linear_combination (cos s * cos t) * hp + (sin s * sin t) * hu + (cos s * sin t + sin s * cos t) * h

theorem along_zero (p u : V3 ℝ) : Spec.arcAt p u 0 = p := by
  unfold Spec.arcAt; simp

/-- **C80** (laws): on a sphere distances do not depend on whole turns of the longitudes, and `npts` cuts arcs into equal parts. -/
theorem C80_sphere_great_circles (R : ℝ) (geod : Geod ℝ) (h : Spec.IsSphere R geod) : Spec.GreatCircles geod := by
  constructor
  · intro p q
    rw [h.inv, h.inv]
    unfold Spec.angle
    rw [point_shift]
  · intro p q
    rw [h.inv, h.inv]
    unfold Spec.angle
    rw [point_shift]
  · intro p q n k hk
    obtain ⟨u, hu, hpu, hq, hs⟩ := h.npts p q n
    have hn : (0 : ℝ) < n + 1 := by positivity
    have a0 : 0 ≤ Spec.angle p q := arccos_nonneg _
    have a1 : Spec.angle p q ≤ π := arccos_le_pi _
    have pt : ∀ k, k ≤ n + 1 → Spec.point (Spec.arcPoint geod p q n k) = Spec.arcAt (Spec.point p) u (k / (n + 1) * Spec.angle p q) := by
      intro k hk
      unfold Spec.arcPoint
      by_cases k0 : k = 0
      · subst k0
        rw [if_pos rfl]
        simp [along_zero]
      by_cases k1 : k = n + 1
      · subst k1
        rw [if_neg k0, if_pos rfl]
        push_cast
        rw [div_self (ne_of_gt hn), one_mul, hq]
      rw [if_neg k0, if_neg k1, (hs (k - 1) (by omega)).1]
      have : ((k - 1 : Nat) : ℝ) + 1 = k := by
        have : ((k - 1 + 1 : Nat) : ℝ) = k := by rw [show k - 1 + 1 = k by omega]
        rw [← this]; push_cast; ring
      rw [this]
    rw [h.inv, h.inv]
    conv_lhs => unfold Spec.angle
    rw [pt k (by omega), pt (k + 1) (by omega), along_inner _ _ (point_unit p) hu hpu]
    have : ((k + 1 : Nat) : ℝ) / (n + 1) * Spec.angle p q - k / (n + 1) * Spec.angle p q = Spec.angle p q / (n + 1) := by
      push_cast; field_simp; ring
    rw [this, arccos_cos (by positivity)]
    · ring
    · rw [div_le_iff₀ hn]
      have : (0 : ℝ) ≤ n := Nat.cast_nonneg n
      nlinarith

/-- Every point of the sphere has a longitude between -180 and 180 and a latitude between -90 and 90. -/
theorem exists_lonlat (v : V3 ℝ) (h : Spec.OnSphere v) :
    ∃ p : ℝ × ℝ, Spec.point p = v ∧ -180 ≤ p.1 ∧ p.1 ≤ 180 ∧ -90 ≤ p.2 ∧ p.2 ≤ 90 := by
  unfold Spec.OnSphere Spec.inner3 at h
  have hz1 : -1 ≤ v.z := by nlinarith [sq_nonneg v.x, sq_nonneg v.y]
  have hz2 : v.z ≤ 1 := by nlinarith [sq_nonneg v.x, sq_nonneg v.y]
  have hpi := Real.pi_pos
  have rd : ∀ x : ℝ, Spec.rad (x / π * 180) = x := by
    intro x; unfold Spec.rad; field_simp
  let w : ℂ := ⟨v.x, v.y⟩
  have hw : ‖w‖ = √(1 - v.z ^ 2) := by
    rw [Complex.norm_def, Complex.normSq_apply]
    congr 1
    show v.x * v.x + v.y * v.y = _
    linarith
  have hc : cos (Complex.arg w) * ‖w‖ = v.x := by
    have := Complex.norm_mul_cos_arg w
    rw [mul_comm]; exact this
  have hs : sin (Complex.arg w) * ‖w‖ = v.y := by
    have := Complex.norm_mul_sin_arg w
    rw [mul_comm]; exact this
  refine ⟨(Complex.arg w / π * 180, arcsin v.z / π * 180), ?_, ?_, ?_, ?_, ?_⟩
  · unfold Spec.point
    dsimp only
    rw [rd, rd, cos_arcsin, ← hw, hc, hs, sin_arcsin hz1 hz2]
  · have := (Complex.neg_pi_lt_arg w).le
    rw [show (-180 : ℝ) = -1 * 180 by norm_num]
    apply mul_le_mul_of_nonneg_right _ (by norm_num)
    rw [le_div_iff₀ hpi]; linarith
  · have := Complex.arg_le_pi w
    rw [show (180 : ℝ) = 1 * 180 by norm_num]
    show w.arg / π * (1 * 180) ≤ 1 * 180
    rw [one_mul]
    have : w.arg / π ≤ 1 := by rw [div_le_iff₀ hpi]; linarith
    linarith
  · have := neg_pi_div_two_le_arcsin v.z
    have : -(1 / 2) ≤ arcsin v.z / π := by rw [le_div_iff₀ hpi]; linarith
    show -90 ≤ arcsin v.z / π * 180
    linarith
  · have := arcsin_le_pi_div_two v.z
    have : arcsin v.z / π ≤ 1 / 2 := by rw [div_le_iff₀ hpi]; linarith
    show arcsin v.z / π * 180 ≤ 90
    linarith

theorem inner_bounds (p q : ℝ × ℝ) : -1 ≤ Spec.inner3 (Spec.point p) (Spec.point q) ∧ Spec.inner3 (Spec.point p) (Spec.point q) ≤ 1 := by
  have hp := point_unit p
  have hq := point_unit q
  generalize Spec.point p = a at *
  generalize Spec.point q = b at *
  unfold Spec.OnSphere Spec.inner3 at *
  constructor
  · nlinarith [sq_nonneg (a.x + b.x), sq_nonneg (a.y + b.y), sq_nonneg (a.z + b.z)]
  · nlinarith [sq_nonneg (a.x - b.x), sq_nonneg (a.y - b.y), sq_nonneg (a.z - b.z)]

theorem cos_angle (p q : ℝ × ℝ) : cos (Spec.angle p q) = Spec.inner3 (Spec.point p) (Spec.point q) :=
  cos_arccos (inner_bounds p q).1 (inner_bounds p q).2

/-- Two points are joined by a shortest great circle. -/
theorem exists_direction (p q : ℝ × ℝ) :
    ∃ u : V3 ℝ, Spec.OnSphere u ∧ Spec.inner3 (Spec.point p) u = 0 ∧ Spec.arcAt (Spec.point p) u (Spec.angle p q) = Spec.point q := by
  have hc := cos_angle p q
  have hsc := sin_sq_add_cos_sq (Spec.angle p q)
  by_cases hs : sin (Spec.angle p q) = 0
  · refine ⟨⟨-sin (Spec.rad p.1), cos (Spec.rad p.1), 0⟩, ?_, ?_, ?_⟩
    · unfold Spec.OnSphere Spec.inner3
      dsimp only
      nlinarith [sin_sq_add_cos_sq (Spec.rad p.1)]
    · unfold Spec.inner3 Spec.point
      dsimp only
      ring
    · have hp := point_unit p
      have hq := point_unit q
      unfold Spec.arcAt
      rw [hs]
      generalize Spec.point p = a at *
      generalize hb : Spec.point q = b at *
      generalize cos (Spec.angle p q) = c at *
      unfold Spec.OnSphere Spec.inner3 at *
      rw [hs] at hsc
      have e : (b.x - c * a.x) ^ 2 + (b.y - c * a.y) ^ 2 + (b.z - c * a.z) ^ 2 = 0 := by
        linear_combination hq - hsc + c ^ 2 * hp + 2 * c * hc
      have e1 : b.x - c * a.x = 0 := by
        apply pow_eq_zero_iff (two_ne_zero) |>.1
        nlinarith [sq_nonneg (b.x - c * a.x), sq_nonneg (b.y - c * a.y), sq_nonneg (b.z - c * a.z)]
      have e2 : b.y - c * a.y = 0 := by
        apply pow_eq_zero_iff (two_ne_zero) |>.1
        nlinarith [sq_nonneg (b.x - c * a.x), sq_nonneg (b.y - c * a.y), sq_nonneg (b.z - c * a.z)]
      have e3 : b.z - c * a.z = 0 := by
        apply pow_eq_zero_iff (two_ne_zero) |>.1
        nlinarith [sq_nonneg (b.x - c * a.x), sq_nonneg (b.y - c * a.y), sq_nonneg (b.z - c * a.z)]
      obtain ⟨bx, bY, bz⟩ := b
      dsimp only at *
      congr 1 <;> linarith
  · have hp := point_unit p
    have hq := point_unit q
    unfold Spec.arcAt
    generalize Spec.point p = a at *
    generalize hb : Spec.point q = b at *
    generalize cos (Spec.angle p q) = c at *
    generalize sin (Spec.angle p q) = s at *
    unfold Spec.OnSphere Spec.inner3 at *
    refine ⟨⟨(b.x - c * a.x) / s, (b.y - c * a.y) / s, (b.z - c * a.z) / s⟩, ?_, ?_, ?_⟩
    · dsimp only
      field_simp
      linear_combination hq + c ^ 2 * hp + 2 * c * hc - hsc
    · dsimp only
      field_simp
      linear_combination -c * hp - hc
    · obtain ⟨bx, bY, bz⟩ := b
      dsimp only
      congr 1 <;> field_simp <;> ring

/-- **C80** (existence): there is such a sphere, of any radius. -/
theorem C80_sphere_exists (R : ℝ) : ∃ geod : Geod ℝ, Spec.IsSphere R geod := by
  have key : ∀ (p q : ℝ × ℝ) (t : ℝ), ∃ r : ℝ × ℝ, Spec.point r = Spec.arcAt (Spec.point p) (Classical.choose (exists_direction p q)) t ∧
      -180 ≤ r.1 ∧ r.1 ≤ 180 ∧ -90 ≤ r.2 ∧ r.2 ≤ 90 := by
    intro p q t
    obtain ⟨h1, h2, -⟩ := Classical.choose_spec (exists_direction p q)
    apply exists_lonlat
    have e := along_inner _ _ (point_unit p) h1 h2 t t
    rw [sub_self, cos_zero] at e
    exact e
  refine ⟨{ inv := fun a b c d => R * Spec.angle (a, b) (c, d)
            npt := fun a b c d n k => Classical.choose (key (a, b) (c, d) ((k + 1) / (n + 1) * Spec.angle (a, b) (c, d)))
            a := R }, rfl, fun p q => rfl, fun p q n => ?_⟩
  obtain ⟨h1, h2, h3⟩ := Classical.choose_spec (exists_direction p q)
  exact ⟨_, h1, h2, h3, fun k _ => Classical.choose_spec (key p q ((k + 1) / (n + 1) * Spec.angle p q))⟩

/-! ## C81: the western and the eastern side -/

/-- Points given by latitudes strictly between the poles determine latitude and longitude up to whole turns. -/
theorem point_inj (p q : ℝ × ℝ) (hp : -90 ≤ p.2 ∧ p.2 ≤ 90) (hq : |q.2| < 90) (h : Spec.point p = Spec.point q) :
    p.2 = q.2 ∧ ∃ n : ℤ, p.1 = q.1 + 360 * n := by
  have hpi := Real.pi_pos
  obtain ⟨q1, q2⟩ := abs_lt.1 hq
  have e3 : sin (Spec.rad p.2) = sin (Spec.rad q.2) := congrArg V3.z h
  have hy : Spec.rad p.2 = Spec.rad q.2 := Real.injOn_sin
    (show Spec.rad p.2 ∈ Set.Icc (-(π / 2)) (π / 2) by unfold Spec.rad; constructor <;> nlinarith)
    (show Spec.rad q.2 ∈ Set.Icc (-(π / 2)) (π / 2) by unfold Spec.rad; constructor <;> nlinarith) e3
  have hyy : p.2 = q.2 := by
    unfold Spec.rad at hy
    have := mul_right_cancel₀ (ne_of_gt hpi) hy
    linarith
  refine ⟨hyy, ?_⟩
  have hok : lonlat2cart (⟨1, 2, fun _ j => if j = 0 then q.1 else p.1⟩ : Mat ℝ) ⟨1, 2, fun _ j => if j = 0 then q.2 else p.2⟩ 1 = .ok _ :=
    if_neg (by simp)
  refine ((C75_same_point_iff _ _ _ _ hok 0 0 0 1 (by simpa using hq) (by simpa [hyy] using hq)).1 ?_).2
  rw [cart_get _ _ _ _ hok, cart_get _ _ _ _ hok]
  exact h.symm

/-- The angle between two points on a meridian, not at the poles. -/
theorem angle_meridian (l a b : ℝ) (ha : |a| < 90) (hb : |b| < 90) :
    Spec.angle (l, a) (l, b) = |Spec.rad b - Spec.rad a| ∧ |Spec.rad b - Spec.rad a| < π := by
  have hpi := Real.pi_pos
  obtain ⟨a1, a2⟩ := abs_lt.1 ha
  obtain ⟨b1, b2⟩ := abs_lt.1 hb
  have hlt : |Spec.rad b - Spec.rad a| < π := by
    rw [abs_lt]
    unfold Spec.rad
    constructor <;> nlinarith
  refine ⟨?_, hlt⟩
  have : Spec.inner3 (Spec.point (l, a)) (Spec.point (l, b)) = cos |Spec.rad b - Spec.rad a| := by
    rw [cos_abs, cos_sub]
    unfold Spec.inner3 Spec.point
    dsimp only
    linear_combination (cos (Spec.rad a) * cos (Spec.rad b)) * sin_sq_add_cos_sq (Spec.rad l)
  unfold Spec.angle
  rw [this, arccos_cos (abs_nonneg _) hlt.le]

/-- A great circle between two points of a meridian runs along the meridian at a constant rate. -/
theorem along_meridian (l a b : ℝ) (ha : |a| < 90) (hb : |b| < 90) (u : V3 ℝ)
    (hq : Spec.arcAt (Spec.point (l, a)) u (Spec.angle (l, a) (l, b)) = Spec.point (l, b)) (t : ℝ) :
    Spec.arcAt (Spec.point (l, a)) u (t * Spec.angle (l, a) (l, b)) = Spec.point (l, a + t * (b - a)) := by
  obtain ⟨hw, hlt⟩ := angle_meridian l a b ha hb
  rw [hw] at hq ⊢
  have hr : Spec.rad (a + t * (b - a)) = Spec.rad a + t * (Spec.rad b - Spec.rad a) := by unfold Spec.rad; ring
  generalize hd : Spec.rad b - Spec.rad a = d at *
  have hbr : Spec.rad b = Spec.rad a + d := by linarith
  unfold Spec.point at *
  dsimp only at *
  rw [hr]
  rw [hbr] at hq
  generalize Spec.rad a = x at *
  generalize Spec.rad l = y at *
  unfold Spec.arcAt at *
  injection hq with q1 q2 q3
  dsimp only at *
  rcases lt_trichotomy d 0 with h | h | h
  · rw [abs_of_neg h] at q1 q2 q3 hlt ⊢
    rw [mul_neg, cos_neg, sin_neg] at *
    have hs : sin d ≠ 0 := by
      have := sin_pos_of_pos_of_lt_pi (show 0 < -d by linarith) hlt
      rw [sin_neg] at this
      intro h0; rw [h0] at this; simp at this
    rw [cos_add, sin_add] at *
    congr 1 <;> apply mul_left_cancel₀ hs
    · linear_combination (sin (t * d)) * q1
    · linear_combination (sin (t * d)) * q2
    · linear_combination (sin (t * d)) * q3
  · subst h
    simp
  · rw [abs_of_pos h] at q1 q2 q3 hlt ⊢
    have hs : sin d ≠ 0 := ne_of_gt (sin_pos_of_pos_of_lt_pi h hlt)
    rw [cos_add, sin_add] at *
    congr 1 <;> apply mul_left_cancel₀ hs
    · linear_combination (sin (t * d)) * q1
    · linear_combination (sin (t * d)) * q2
    · linear_combination (sin (t * d)) * q3

/-- The two ways of giving longitudes: all from 0 to 360, or all from -180 to 180. -/
def Spec.LonConvention (lon1 lon2 : ℝ) : Prop :=
  (0 ≤ lon1 ∧ lon1 < 360 ∧ 0 ≤ lon2 ∧ lon2 < 360) ∨ (|lon1| < 180 ∧ |lon2| < 180)

/-- A subdivision point with the longitude of a meridian is stored with that longitude. -/
theorem meridian_stored (R : ℝ) (geod : Geod ℝ) (hg : Spec.IsSphere R geod) (lon1 lon2 : ℝ) (X : Mat ℝ)
    (hX : Spec.NonNeg X ↔ PyFloat.lt lon1 Arith.zero = false ∧ PyFloat.lt lon2 (Arith.zero : ℝ) = false ∧
      PyFloat.lt (Arith.zero : ℝ) Arith.zero = false)
    (hc : Spec.LonConvention lon1 lon2) (l : ℝ) (hl : l = lon1 ∨ l = lon2) (a b : ℝ) (ha : |a| < 90) (hb : |b| < 90)
    (n k : Nat) (hk : k < n) (v : ℝ × ℝ) (h : Spec.IsSub geod X n k (l, a) (l, b) v) :
    v = (l, a + (k + 1) / (n + 1) * (b - a)) := by
  obtain ⟨u, hu, hpu, hq, hs⟩ := hg.npts (l, a) (l, b) n
  obtain ⟨h1, r1, r2, r3, r4⟩ := hs k hk
  rw [along_meridian l a b ha hb u hq] at h1
  have hn : (0 : ℝ) < n + 1 := by positivity
  have t0 : (0 : ℝ) ≤ (k + 1) / (n + 1) := by positivity
  have t1 : ((k : ℝ) + 1) / (n + 1) ≤ 1 := by
    rw [div_le_one hn]
    have : (k : ℝ) < n := by exact_mod_cast hk
    linarith
  have hlat : |a + ((k : ℝ) + 1) / (n + 1) * (b - a)| < 90 := by
    obtain ⟨a1, a2⟩ := abs_lt.1 ha
    obtain ⟨b1, b2⟩ := abs_lt.1 hb
    generalize ((k : ℝ) + 1) / (n + 1) = t at *
    rw [abs_lt]
    rcases t1.lt_or_eq with t1 | rfl
    · constructor
      · nlinarith [mul_pos (sub_pos.2 t1) (show 0 < 90 + a by linarith), mul_nonneg t0 (show 0 ≤ 90 + b by linarith)]
      · nlinarith [mul_pos (sub_pos.2 t1) (show 0 < 90 - a by linarith), mul_nonneg t0 (show 0 ≤ 90 - b by linarith)]
    · constructor <;> linarith
  obtain ⟨e1, z, e2⟩ := point_inj _ _ ⟨r3, r4⟩ hlat h1
  dsimp only at e1 e2 r1 r2
  obtain ⟨⟨x1, x2⟩, y⟩ := h
  refine Prod.ext ?_ (y.trans e1)
  show v.1 = l
  have lt0 : ∀ x : ℝ, PyFloat.lt x Arith.zero = false ↔ 0 ≤ x := by
    intro x
    rw [← not_lt, ← lt_r, Bool.not_eq_true, zero_r]
  have hX' : Spec.NonNeg X ↔ 0 ≤ lon1 ∧ 0 ≤ lon2 := by
    rw [hX, lt0, lt0, lt0]
    exact ⟨fun h => ⟨h.1, h.2.1⟩, fun h => ⟨h.1, h.2, le_refl _⟩⟩
  generalize geod.npt l a l b n k = w at *
  by_cases hn : Spec.NonNeg X
  · have l0 : 0 ≤ l := by rcases hl with h | h <;> rw [h]; exacts [(hX'.1 hn).1, (hX'.1 hn).2]
    have l1 : l < 360 := by
      rcases hc with ⟨_, c1, _, c2⟩ | ⟨c1, c2⟩
      · rcases hl with h | h <;> rw [h] <;> assumption
      · rw [abs_lt] at c1 c2
        rcases hl with h | h <;> rw [h] <;> linarith
    have hv := x1 hn
    have z0 : z = 0 ∨ z = -1 := by
      have u1 : (z : ℝ) < 1 := by linarith
      have u2 : (-2 : ℝ) < z := by linarith
      have u1' : z < 1 := by exact_mod_cast u1
      have u2' : -2 < z := by exact_mod_cast u2
      omega
    rcases z0 with rfl | rfl
    · have : w.1 = l := by rw [e2]; simp
      rw [if_neg (by rw [Bool.not_eq_true, lt0, this]; exact l0)] at hv
      rw [hv, this]
    · have e : w.1 = l - 360 := by rw [e2]; push_cast; ring
      rw [if_pos (by rw [lt_r, zero_r, e]; linarith)] at hv
      rw [hv, e]
      show l - 360 + 360 = l
      ring
  · have hv := x2 hn
    have hll : |l| < 180 := by
      rcases hc with ⟨c1, _, c2, _⟩ | ⟨c1, c2⟩
      · exact absurd (hX'.2 ⟨c1, c2⟩) hn
      · rcases hl with h | h <;> rw [h] <;> assumption
    obtain ⟨l1, l2⟩ := abs_lt.1 hll
    have z0 : z = 0 := by
      have u1 : (z : ℝ) < 1 := by linarith
      have u2 : (-1 : ℝ) < z := by linarith
      have u1' : z < 1 := by exact_mod_cast u1
      have u2' : -1 < z := by exact_mod_cast u2
      omega
    subst z0
    rw [hv, e2]; simp

/-- **C81**: on a sphere the western and the eastern side of a grid made by `mkgrid` are meridians cut at equal latitude steps. -/
theorem C81_meridian_sides (R : ℝ) (geod : Geod ℝ) (hg : Spec.IsSphere R geod) (lon1 lat1 lon2 lat2 : ℝ) (m n : Nat)
    (hm : 1 ≤ m) (hn : 1 ≤ n) (h1 : |lat1| < 90) (h2 : |lat2| < 90) (hc : Spec.LonConvention lon1 lon2) :
    ∃ g X Y, mkgrid geod lon1 lat1 lon2 lat2 (m : Int) (n : Int) = .ok (g, (m : Int), (n : Int)) ∧ g .XG = .arr X ∧ g .YG = .arr Y ∧
      ∀ j, j ≤ n → X.get 0 j = lon1 ∧ X.get m j = lon2 ∧ Y.get 0 j = lat2 + j / n * (lat1 - lat2) ∧ Y.get m j = lat2 + j / n * (lat1 - lat2) := by
  obtain ⟨P, g, planar, W, eq, p00, p10, p01, p11, hS, hN, hC, hW, hv, -⟩ := mkgrid_points geod lon1 lat1 lon2 lat2 m n hm hn
  obtain ⟨X, hX, vX⟩ := hv .XG
  obtain ⟨Y, hY, vY⟩ := hv .YG
  refine ⟨g, X, Y, eq, hX, hY, fun j hj => ?_⟩
  have hn' : (n : ℝ) ≠ 0 := by
    have : n ≠ 0 := by omega
    exact_mod_cast this
  have col : ∀ (a : Nat) (l : ℝ), a ≤ 2 * m → l = lon1 ∨ l = lon2 → P a 0 = (l, lat2) → P a (2 * n) = (l, lat1) →
      P a (2 * j) = (l, lat2 + j / n * (lat1 - lat2)) := by
    intro a l ha hl q0 q1
    by_cases j0 : j = 0
    · subst j0; rw [Nat.mul_zero, q0]; simp
    by_cases j1 : j = n
    · subst j1; rw [q1, div_self hn']
      refine Prod.ext rfl ?_
      show lat1 = lat2 + 1 * (lat1 - lat2)
      ring
    have s := hC a (2 * j - 1) ha (by omega)
    rw [q0, q1, show 2 * j - 1 + 1 = 2 * j by omega] at s
    rw [meridian_stored R geod hg lon1 lon2 W hW hc l hl lat2 lat1 h2 h1 (2 * n - 1) (2 * j - 1) (by omega) _ s]
    have f1 : ((2 * j - 1 : Nat) : ℝ) + 1 = 2 * j := by
      have : ((2 * j - 1 + 1 : Nat) : ℝ) = (2 * j : Nat) := by rw [show 2 * j - 1 + 1 = 2 * j by omega]
      push_cast at this ⊢; exact this
    have f2 : ((2 * n - 1 : Nat) : ℝ) + 1 = 2 * n := by
      have : ((2 * n - 1 + 1 : Nat) : ℝ) = (2 * n : Nat) := by rw [show 2 * n - 1 + 1 = 2 * n by omega]
      push_cast at this ⊢; exact this
    rw [f1, f2, mul_div_mul_left _ _ (two_ne_zero)]
  have cw := col 0 lon1 (by omega) (.inl rfl) p00 p01
  have ce := col (2 * m) lon2 (by omega) (.inr rfl) p10 p11
  have ex : ∀ i, i ≤ m → X.get i j = (P (2 * i) (2 * j)).1 := by
    intro i hi
    rw [vX i j (by simp only [Spec.nrows]; omega) (by simp only [Spec.ncols]; omega)]
    show (P (2 * (i : Int)).toNat (2 * (j : Int)).toNat).1 = _
    rw [show (2 * (i : Int)).toNat = 2 * i by omega, show (2 * (j : Int)).toNat = 2 * j by omega]
  have ey : ∀ i, i ≤ m → Y.get i j = (P (2 * i) (2 * j)).2 := by
    intro i hi
    rw [vY i j (by simp only [Spec.nrows]; omega) (by simp only [Spec.ncols]; omega)]
    show (P (2 * (i : Int)).toNat (2 * (j : Int)).toNat).2 = _
    rw [show (2 * (i : Int)).toNat = 2 * i by omega, show (2 * (j : Int)).toNat = 2 * j by omega]
  rw [ex 0 (by omega), ex m (by omega), ey 0 (by omega), ey m (by omega), Nat.mul_zero, cw, ce]
  exact ⟨rfl, rfl, rfl, rfl⟩

/-! ## C82: the southern and the northern side -/

/-- Heights along a great circle whose ends have the same height `s`. -/
theorem height_along (s w uz t : ℝ) (w0 : 0 ≤ w) (w1 : w ≤ π) (t0 : 0 ≤ t) (t1 : t ≤ 1) (h : cos w * s + sin w * uz = s) :
    (0 < s → s ≤ cos (t * w) * s + sin (t * w) * uz ∧ (0 < t → t < 1 → 0 < w → s < cos (t * w) * s + sin (t * w) * uz)) ∧
    (s < 0 → cos (t * w) * s + sin (t * w) * uz ≤ s ∧ (0 < t → t < 1 → 0 < w → cos (t * w) * s + sin (t * w) * uz < s)) ∧
    (s = 0 → w < π → cos (t * w) * s + sin (t * w) * uz = 0) := by
  have hpi := Real.pi_pos
  rcases w0.lt_or_eq with wp | rfl
  · have wne : s ≠ 0 → w < π := by
      intro hs
      rcases w1.lt_or_eq with h' | rfl
      · exact h'
      · rw [cos_pi, sin_pi] at h
        exact absurd (by linarith) hs
    -- half angles
    have c2 : cos w = 2 * cos (w / 2) ^ 2 - 1 := by rw [← cos_two_mul]; congr 1; ring
    have s2 : sin w = 2 * sin (w / 2) * cos (w / 2) := by rw [← sin_two_mul]; congr 1; ring
    have hsin : 0 < sin (w / 2) := sin_pos_of_pos_of_lt_pi (by linarith) (by linarith)
    have hu : cos (w / 2) * uz = s * sin (w / 2) := by
      have := sin_sq_add_cos_sq (w / 2)
      rw [c2, s2] at h
      apply mul_left_cancel₀ (ne_of_gt hsin)
      linear_combination h / 2 - s * this
    have hz : cos (w / 2) * (cos (t * w) * s + sin (t * w) * uz) = s * cos (t * w - w / 2) := by
      rw [cos_sub]
      linear_combination (sin (t * w)) * hu
    have hab : |t * w - w / 2| ≤ w / 2 := by
      rw [abs_le]; constructor <;> nlinarith
    have hle : cos (w / 2) ≤ cos (t * w - w / 2) := by
      rw [← cos_abs (t * w - w / 2)]
      exact cos_le_cos_of_nonneg_of_le_pi (abs_nonneg _) (by linarith) hab
    have hlt : 0 < t → t < 1 → cos (w / 2) < cos (t * w - w / 2) := by
      intro a b
      rw [← cos_abs (t * w - w / 2)]
      refine cos_lt_cos_of_nonneg_of_le_pi (abs_nonneg _) (by linarith) ?_
      rw [abs_lt]; constructor <;> nlinarith
    have hc : w < π → 0 < cos (w / 2) := fun h => cos_pos_of_mem_Ioo ⟨by linarith, by linarith⟩
    generalize cos (t * w) * s + sin (t * w) * uz = y at *
    refine ⟨fun hs => ⟨?_, fun a b _ => ?_⟩, fun hs => ⟨?_, fun a b _ => ?_⟩, fun hs hw => ?_⟩
    · have hc := hc (wne (ne_of_gt hs))
      refine le_of_mul_le_mul_left ?_ hc
      rw [hz]; nlinarith
    · have hc := hc (wne (ne_of_gt hs))
      refine lt_of_mul_lt_mul_left ?_ hc.le
      rw [hz]; nlinarith [hlt a b]
    · have hc := hc (wne (ne_of_lt hs))
      refine le_of_mul_le_mul_left ?_ hc
      rw [hz]; nlinarith
    · have hc := hc (wne (ne_of_lt hs))
      refine lt_of_mul_lt_mul_left ?_ hc.le
      rw [hz]; nlinarith [hlt a b]
    · have hc := hc hw
      rw [hs, zero_mul] at hz
      exact (mul_eq_zero.1 hz).resolve_left (ne_of_gt hc)
  · simp
    exact fun h _ => h

/-- What users expect of a side of constant latitude `lat` replaced by a great circle: the points bulge towards the pole.
`inner`: the point is none of the ends; `turns`: the ends differ by whole turns; `half`: by an odd number of half turns. -/
def Spec.Bulges (lat y : ℝ) (inner turns half : Prop) : Prop :=
  (0 < lat → lat ≤ y ∧ (inner → ¬ turns → lat < y)) ∧
  (lat < 0 → y ≤ lat ∧ (inner → ¬ turns → y < lat)) ∧
  (lat = 0 → ¬ half → y = 0)

theorem npt_bulges (R : ℝ) (geod : Geod ℝ) (hg : Spec.IsSphere R geod) (l l' a : ℝ) (ha : |a| < 90) (n k : Nat) (hk : k < n) :
    Spec.Bulges a (geod.npt l a l' a n k).2 True (∃ z : ℤ, l' = l + 360 * z) (∃ z : ℤ, l' = l + 180 + 360 * z) := by
  have hpi := Real.pi_pos
  obtain ⟨u, hu, hpu, hq, hs⟩ := hg.npts (l, a) (l', a) n
  obtain ⟨h1, -, -, r3, r4⟩ := hs k hk
  dsimp only at h1 r3 r4
  have hn : (0 : ℝ) < n + 1 := by positivity
  have t0 : (0 : ℝ) < (k + 1) / (n + 1) := by positivity
  have t1 : ((k : ℝ) + 1) / (n + 1) < 1 := by
    rw [div_lt_one hn]
    have : (k : ℝ) < n := by exact_mod_cast hk
    linarith
  have z1 : sin (Spec.rad (geod.npt l a l' a n k).2) = _ := congrArg V3.z h1
  have zq : cos (Spec.angle (l, a) (l', a)) * sin (Spec.rad a) + sin (Spec.angle (l, a) (l', a)) * u.z = sin (Spec.rad a) :=
    congrArg V3.z hq
  have w0 : 0 ≤ Spec.angle (l, a) (l', a) := arccos_nonneg _
  have w1 : Spec.angle (l, a) (l', a) ≤ π := arccos_le_pi _
  obtain ⟨H1, H2, H3⟩ := height_along _ _ _ ((k + 1) / (n + 1)) w0 w1 t0.le t1.le zq
  have z1' : sin (Spec.rad (geod.npt l a l' a n k).2) = cos ((k + 1) / (n + 1) * Spec.angle (l, a) (l', a)) * sin (Spec.rad a) +
      sin ((k + 1) / (n + 1) * Spec.angle (l, a) (l', a)) * u.z := z1
  rw [← z1'] at H1 H2 H3
  obtain ⟨a1, a2⟩ := abs_lt.1 ha
  generalize hy : (geod.npt l a l' a n k).2 = y at *
  have ia : Spec.rad a ∈ Set.Icc (-(π / 2)) (π / 2) := by unfold Spec.rad; constructor <;> nlinarith
  have iy : Spec.rad y ∈ Set.Icc (-(π / 2)) (π / 2) := by unfold Spec.rad; constructor <;> nlinarith
  have rlt : ∀ x y : ℝ, Spec.rad x < Spec.rad y ↔ x < y := by
    intro x y
    unfold Spec.rad
    constructor
    · intro h
      have := lt_of_mul_lt_mul_right h hpi.le
      linarith
    · intro h; apply mul_lt_mul_of_pos_right _ hpi; linarith
  have rle : ∀ x y : ℝ, Spec.rad x ≤ Spec.rad y ↔ x ≤ y := by
    intro x y; rw [← not_lt, ← not_lt, rlt]
  have r0 : Spec.rad 0 = 0 := by unfold Spec.rad; ring
  have turn : (¬ ∃ z : ℤ, l' = l + 360 * z) → 0 < Spec.angle (l, a) (l', a) := by
    intro hnt
    rcases w0.lt_or_eq with h | h
    · exact h
    · rw [← h, along_zero] at hq
      exact absurd (point_inj (l', a) (l, a) ⟨by simpa using a1.le, by simpa using a2.le⟩ ha hq.symm).2 hnt
  refine ⟨fun hp => ?_, fun hp => ?_, fun hz hh => ?_⟩
  · have hsp : 0 < sin (Spec.rad a) := by
      apply sin_pos_of_pos_of_lt_pi
      · rw [← r0, rlt]; exact hp
      · linarith [ia.2]
    obtain ⟨q1, q2⟩ := H1 hsp
    refine ⟨(rle _ _).1 ?_, fun _ hnt => (rlt _ _).1 ?_⟩
    · exact (strictMonoOn_sin.le_iff_le ia iy).1 q1
    · exact (strictMonoOn_sin.lt_iff_lt ia iy).1 (q2 t0 t1 (turn hnt))
  · have hsp : sin (Spec.rad a) < 0 := by
      apply sin_neg_of_neg_of_neg_pi_lt
      · rw [← r0, rlt]; exact hp
      · linarith [ia.1]
    obtain ⟨q1, q2⟩ := H2 hsp
    refine ⟨(rle _ _).1 ?_, fun _ hnt => (rlt _ _).1 ?_⟩
    · exact (strictMonoOn_sin.le_iff_le iy ia).1 q1
    · exact (strictMonoOn_sin.lt_iff_lt iy ia).1 (q2 t0 t1 (turn hnt))
  · subst hz
    rw [r0, sin_zero] at H3
    have hw : Spec.angle (l, 0) (l', 0) < π := by
      rcases w1.lt_or_eq with h | h
      · exact h
      · exfalso
        apply hh
        have c := cos_angle (l, 0) (l', 0)
        rw [h, cos_pi] at c
        unfold Spec.inner3 Spec.point at c
        simp only [r0, cos_zero, sin_zero, mul_one, mul_zero, add_zero] at c
        have c' : cos (Spec.rad l' - Spec.rad l - π) = 1 := by
          rw [cos_sub_pi, cos_sub]; linarith
        obtain ⟨z, hz⟩ := (cos_eq_one_iff _).1 c'
        refine ⟨z, ?_⟩
        unfold Spec.rad at hz
        have : π * (l' - l - 180 - 360 * z) = 0 := by linarith
        rcases mul_eq_zero.1 this with h | h
        · exact absurd h (ne_of_gt hpi)
        · linarith
    have := H3 rfl hw
    have e : Spec.rad y = 0 := by
      rw [← r0]
      refine Real.injOn_sin iy ?_ (by rw [this, r0, sin_zero])
      rw [r0]; constructor <;> linarith
    unfold Spec.rad at e
    rcases mul_eq_zero.1 e with h | h
    · linarith
    · exact absurd h (ne_of_gt hpi)

/-- **C82**: on a sphere the southern and the northern side of a grid made by `mkgrid` are great circles, not parallels: between the corners
they bulge towards the pole of their hemisphere, so the grid does not cover exactly the box asked for; a side on the equator stays there. -/
theorem C82_sides_bulge (R : ℝ) (geod : Geod ℝ) (hg : Spec.IsSphere R geod) (lon1 lat1 lon2 lat2 : ℝ) (m n : Nat)
    (hm : 1 ≤ m) (hn : 1 ≤ n) (h1 : |lat1| < 90) (h2 : |lat2| < 90) :
    ∃ g Y, mkgrid geod lon1 lat1 lon2 lat2 (m : Int) (n : Int) = .ok (g, (m : Int), (n : Int)) ∧ g .YG = .arr Y ∧
      ∀ (north : Bool) (i : Nat), i ≤ m →
        Spec.Bulges (if north then lat1 else lat2) (Y.get i (if north then n else 0)) (0 < i ∧ i < m)
          (∃ z : ℤ, lon2 = lon1 + 360 * z) (∃ z : ℤ, lon2 = lon1 + 180 + 360 * z) := by
  obtain ⟨P, g, planar, W, eq, p00, p10, p01, p11, hS, hN, hC, hW, hv, -⟩ := mkgrid_points geod lon1 lat1 lon2 lat2 m n hm hn
  obtain ⟨Y, hY, vY⟩ := hv .YG
  refine ⟨g, Y, eq, hY, fun north i hi => ?_⟩
  have ey : ∀ j, j ≤ n → Y.get i j = (P (2 * i) (2 * j)).2 := by
    intro j hj
    rw [vY i j (by simp only [Spec.nrows]; omega) (by simp only [Spec.ncols]; omega)]
    show (P (2 * (i : Int)).toNat (2 * (j : Int)).toNat).2 = _
    rw [show (2 * (i : Int)).toNat = 2 * i by omega, show (2 * (j : Int)).toNat = 2 * j by omega]
  have side : ∀ (c : Nat) (lat : ℝ), |lat| < 90 → P 0 c = (lon1, lat) → P (2 * m) c = (lon2, lat) →
      (∀ k, k < 2 * m - 1 → Spec.IsSub geod W (2 * m - 1) k (P 0 c) (P (2 * m) c) (P (k + 1) c)) →
      Spec.Bulges lat (P (2 * i) c).2 (0 < i ∧ i < m) (∃ z : ℤ, lon2 = lon1 + 360 * z) (∃ z : ℤ, lon2 = lon1 + 180 + 360 * z) := by
    intro c lat hl q0 q1 hs
    by_cases hin : 0 < i ∧ i < m
    · have s := (hs (2 * i - 1) (by omega)).2
      rw [show 2 * i - 1 + 1 = 2 * i by omega] at s
      rw [s, q0, q1]
      obtain ⟨b1, b2, b3⟩ := npt_bulges R geod hg lon1 lon2 lat hl (2 * m - 1) (2 * i - 1) (by omega)
      exact ⟨fun h => ⟨(b1 h).1, fun _ => (b1 h).2 trivial⟩, fun h => ⟨(b2 h).1, fun _ => (b2 h).2 trivial⟩, b3⟩
    · have e : (P (2 * i) c).2 = lat := by
        by_cases i0 : i = 0
        · subst i0; rw [Nat.mul_zero, q0]
        · rw [show i = m by omega, q1]
      rw [e]
      exact ⟨fun _ => ⟨le_refl _, fun h => absurd h hin⟩, fun _ => ⟨le_refl _, fun h => absurd h hin⟩, fun h _ => h⟩
  cases north
  · have := side 0 lat2 h2 p00 p10 hS
    rw [← Nat.mul_zero 2, ← ey 0 (by omega)] at this
    exact this
  · have := side (2 * n) lat1 h1 p01 p11 hN
    rw [← ey n (by omega)] at this
    exact this

/-! ## Concrete cases -/

/-- A box in the north Atlantic on the sphere of radius 6370997: C79, C81 and C82 apply. -/
example : ∃ (geod : Geod ℝ) (g : Grid ℝ) (X Y DY : Mat ℝ), Spec.IsSphere 6370997 geod ∧ mkgrid geod (-60) 50 (-20) 30 (4 : Nat) (2 : Nat) = .ok (g, 4, 2) ∧
    g .XG = .arr X ∧ g .YG = .arr Y ∧ g .DYG = .arr DY ∧
    X.get 0 1 = -60 ∧ Y.get 0 1 = 40 ∧ 50 < Y.get 2 2 ∧ 30 < Y.get 1 0 ∧ DY.get 0 0 = 6370997 * (20 * π / 180) / 2 := by
  obtain ⟨geod, hg⟩ := C80_sphere_exists 6370997
  obtain ⟨g, X, Y, e, hX, hY, h⟩ := C81_meridian_sides _ geod hg (-60) 50 (-20) 30 4 2 (by norm_num) (by norm_num)
    (by rw [abs_lt]; norm_num) (by rw [abs_lt]; norm_num) (.inr ⟨by rw [abs_lt]; norm_num, by rw [abs_lt]; norm_num⟩)
  obtain ⟨g', Y', e', hY', b⟩ := C82_sides_bulge _ geod hg (-60) 50 (-20) 30 4 2 (by norm_num) (by norm_num)
    (by rw [abs_lt]; norm_num) (by rw [abs_lt]; norm_num)
  obtain ⟨g'', X'', Y'', DX, DY, e'', hX'', hY'', -, hDY, d, -⟩ := C79_equal_spacing geod (C80_sphere_great_circles _ geod hg) (-60) 50 (-20) 30 4 2
    (by norm_num) (by norm_num)
  rw [e] at e' e''
  cases e'; cases e''
  rw [hY] at hY' hY''
  cases hY'; cases hY''
  rw [hX] at hX''
  cases hX''
  have hz : ¬ ∃ z : ℤ, (-20 : ℝ) = -60 + 360 * z := by
    rintro ⟨z, hz⟩
    have : (360 * z : ℝ) = 40 := by linarith
    have : 360 * z = 40 := by exact_mod_cast this
    omega
  refine ⟨geod, g, X, Y, DY, hg, e, hX, hY, hDY, (h 1 (by norm_num)).1, ?_, ?_, ?_, ?_⟩
  · rw [(h 1 (by norm_num)).2.2.1]; norm_num
  · exact ((b true 2 (by norm_num)).1 (by norm_num)).2 (by norm_num) hz
  · exact ((b false 1 (by norm_num)).1 (by norm_num)).2 (by norm_num) hz
  · rw [d 0 0 (by norm_num) (by norm_num), (h 0 (by norm_num)).1, (h 0 (by norm_num)).2.2.1, (h 2 (by norm_num)).1, (h 2 (by norm_num)).2.2.1,
      hg.inv, show (30 : ℝ) + (0 : Nat) / (2 : Nat) * (50 - 30) = 30 by norm_num, show (30 : ℝ) + (2 : Nat) / (2 : Nat) * (50 - 30) = 50 by norm_num,
      (angle_meridian (-60) 30 50 (by rw [abs_lt]; norm_num) (by rw [abs_lt]; norm_num)).1]
    have : Spec.rad 50 - Spec.rad 30 = 20 * π / 180 := by unfold Spec.rad; ring
    rw [this, abs_of_pos (by positivity)]
    norm_num

end SG
