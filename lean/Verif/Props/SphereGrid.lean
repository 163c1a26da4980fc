import Verif.Props.GreatCircle
/-! # C96-C98: where the points of a `mkgrid` grid are (exact arithmetic, sphere) -/

set_option linter.unusedSectionVars false
namespace SG
open Real

/-! ## Specification -/

namespace Spec

/-- The point at fraction `t` of the shortest great circle arc from `p` to `q`. -/
noncomputable def between (p q : V3 ℝ) (t : ℝ) : V3 ℝ :=
  let w := arccos (inner3 p q)
  if sin w = 0 then p else
    ⟨(sin ((1 - t) * w) * p.x + sin (t * w) * q.x) / sin w, (sin ((1 - t) * w) * p.y + sin (t * w) * q.y) / sin w,
      (sin ((1 - t) * w) * p.z + sin (t * w) * q.z) / sin w⟩

/-- A point of the box with north-west corner `(lon1,lat1)` and south-east corner `(lon2,lat2)`: fraction `t` of the way from the southern to the
northern side, along the great circle that joins the points at fraction `s` of the two sides. -/
noncomputable def boxPoint (lon1 lat1 lon2 lat2 s t : ℝ) : V3 ℝ :=
  between (between (point (lon1, lat2)) (point (lon2, lat2)) s) (between (point (lon1, lat1)) (point (lon2, lat1)) s) t

/-- Less than half a turn wide, poles excluded. -/
structure Box (lon1 lat1 lon2 lat2 : ℝ) : Prop where
  north : |lat1| < 90
  south : |lat2| < 90
  width : ∃ z : ℤ, |lon2 - lon1 - 360 * z| < 180

end Spec

/-! ## Arcs -/

theorem inner_unit_bounds {p q : V3 ℝ} (hp : Spec.OnSphere p) (hq : Spec.OnSphere q) : -1 ≤ Spec.inner3 p q ∧ Spec.inner3 p q ≤ 1 := by
  unfold Spec.OnSphere Spec.inner3 at *
  constructor
  · nlinarith [sq_nonneg (p.x + q.x), sq_nonneg (p.y + q.y), sq_nonneg (p.z + q.z)]
  · nlinarith [sq_nonneg (p.x - q.x), sq_nonneg (p.y - q.y), sq_nonneg (p.z - q.z)]

theorem V3.ext' {p q : V3 ℝ} (h1 : p.x = q.x) (h2 : p.y = q.y) (h3 : p.z = q.z) : p = q := by
  cases p; cases q; cases h1; cases h2; cases h3; rfl

/-- In an open hemisphere no two points are antipodal. -/
theorem hemi_lt_pi {p q h : V3 ℝ} (hp : Spec.OnSphere p) (hq : Spec.OnSphere q) (h1 : 0 < Spec.inner3 h p) (h2 : 0 < Spec.inner3 h q) :
    arccos (Spec.inner3 p q) < π := by
  have hb := inner_unit_bounds hp hq
  rcases hb.1.lt_or_eq with hl | hl
  · rw [← arccos_neg_one]
    exact arccos_lt_arccos (le_refl _) hl hb.2
  · exfalso
    unfold Spec.OnSphere Spec.inner3 at *
    have e : (p.x + q.x) ^ 2 + (p.y + q.y) ^ 2 + (p.z + q.z) ^ 2 = 0 := by nlinarith
    have e1 : p.x + q.x = 0 := by nlinarith [sq_nonneg (p.x + q.x), sq_nonneg (p.y + q.y), sq_nonneg (p.z + q.z)]
    have e2 : p.y + q.y = 0 := by nlinarith [sq_nonneg (p.x + q.x), sq_nonneg (p.y + q.y), sq_nonneg (p.z + q.z)]
    have e3 : p.z + q.z = 0 := by nlinarith [sq_nonneg (p.x + q.x), sq_nonneg (p.y + q.y), sq_nonneg (p.z + q.z)]
    have : h.x * (p.x + q.x) + h.y * (p.y + q.y) + h.z * (p.z + q.z) = 0 := by rw [e1, e2, e3]; ring
    linarith

/-- Coefficients of a point on an arc. -/
theorem between_coeff {p q : V3 ℝ} (hp : Spec.OnSphere p) (hq : Spec.OnSphere q) (hw : arccos (Spec.inner3 p q) < π) {t : ℝ} (t0 : 0 ≤ t)
    (t1 : t ≤ 1) : ∃ c d : ℝ, 0 ≤ c ∧ 0 ≤ d ∧ 0 < c + d ∧
      Spec.between p q t = ⟨c * p.x + d * q.x, c * p.y + d * q.y, c * p.z + d * q.z⟩ := by
  unfold Spec.between
  have w0 := arccos_nonneg (Spec.inner3 p q)
  generalize arccos (Spec.inner3 p q) = w at *
  by_cases hs : sin w = 0
  · refine ⟨1, 0, by norm_num, le_refl _, by norm_num, ?_⟩
    dsimp only
    rw [if_pos hs]
    apply V3.ext' <;> simp
  · have wp : 0 < w := by
      rcases w0.lt_or_eq with h | h
      · exact h
      · rw [← h, sin_zero] at hs; exact absurd rfl hs
    have hsp : 0 < sin w := sin_pos_of_pos_of_lt_pi wp hw
    have a : 0 ≤ sin ((1 - t) * w) := sin_nonneg_of_nonneg_of_le_pi (by nlinarith) (by nlinarith)
    have b : 0 ≤ sin (t * w) := sin_nonneg_of_nonneg_of_le_pi (by nlinarith) (by nlinarith)
    refine ⟨sin ((1 - t) * w) / sin w, sin (t * w) / sin w, by positivity, by positivity, ?_, ?_⟩
    · rw [← add_div]
      apply div_pos _ hsp
      rcases t0.lt_or_eq with h | h
      · have : 0 < sin (t * w) := sin_pos_of_pos_of_lt_pi (by positivity) (by nlinarith)
        linarith
      · subst h
        simp only [sub_zero, one_mul, zero_mul, sin_zero, add_zero]
        exact hsp
    · dsimp only
      rw [if_neg hs]
      apply V3.ext' <;> dsimp only <;> field_simp

theorem between_hemi {p q h : V3 ℝ} (hp : Spec.OnSphere p) (hq : Spec.OnSphere q) (h1 : 0 < Spec.inner3 h p) (h2 : 0 < Spec.inner3 h q) {t : ℝ}
    (t0 : 0 ≤ t) (t1 : t ≤ 1) : 0 < Spec.inner3 h (Spec.between p q t) := by
  obtain ⟨c, d, hc, hd, hcd, e⟩ := between_coeff hp hq (hemi_lt_pi hp hq h1 h2) t0 t1
  rw [e]
  have : Spec.inner3 h ⟨c * p.x + d * q.x, c * p.y + d * q.y, c * p.z + d * q.z⟩ = c * Spec.inner3 h p + d * Spec.inner3 h q := by
    unfold Spec.inner3; dsimp only; ring
  rw [this]
  rcases hc.lt_or_eq with hc' | hc'
  · nlinarith [mul_pos hc' h1, mul_nonneg hd h2.le]
  · rw [← hc'] at hcd ⊢
    nlinarith [mul_pos (show 0 < d by linarith) h2]

/-- The parametrisation with a direction is the one with the two ends. -/
theorem arcAt_between {p q u : V3 ℝ} (hp : Spec.OnSphere p) (hq : Spec.OnSphere q) (hw : arccos (Spec.inner3 p q) < π)
    (h : Spec.arcAt p u (arccos (Spec.inner3 p q)) = q) (t : ℝ) : Spec.arcAt p u (t * arccos (Spec.inner3 p q)) = Spec.between p q t := by
  unfold Spec.between
  have w0 := arccos_nonneg (Spec.inner3 p q)
  generalize arccos (Spec.inner3 p q) = w at *
  dsimp only
  by_cases hs : sin w = 0
  · rw [if_pos hs]
    have : w = 0 := by
      rcases w0.lt_or_eq with h | h
      · exact absurd hs (ne_of_gt (sin_pos_of_pos_of_lt_pi h hw))
      · exact h.symm
    rw [this, mul_zero, along_zero]
  · rw [if_neg hs, ← h]
    have e : sin ((1 - t) * w) = sin w * cos (t * w) - cos w * sin (t * w) := by rw [← sin_sub]; congr 1; ring
    rw [e]
    unfold Spec.arcAt
    apply V3.ext' <;> dsimp only <;> field_simp <;> ring

theorem between_unit {p q : V3 ℝ} (hp : Spec.OnSphere p) (hq : Spec.OnSphere q) (t : ℝ) : Spec.OnSphere (Spec.between p q t) := by
  have hb := inner_unit_bounds hp hq
  have hc := cos_arccos hb.1 hb.2
  unfold Spec.between
  generalize arccos (Spec.inner3 p q) = w at *
  dsimp only
  by_cases hs : sin w = 0
  · rw [if_pos hs]; exact hp
  · rw [if_neg hs]
    have e : sin ((1 - t) * w) = sin w * cos (t * w) - cos w * sin (t * w) := by rw [← sin_sub]; congr 1; ring
    have s1 := sin_sq_add_cos_sq w
    have s2 := sin_sq_add_cos_sq (t * w)
    rw [e]
    generalize sin (t * w) = S at *
    generalize cos (t * w) = C at *
    generalize sin w = s at *
    generalize cos w = c at *
    unfold Spec.OnSphere Spec.inner3 at *
    dsimp only
    field_simp
    linear_combination (s * C - c * S) ^ 2 * hp + S ^ 2 * hq - 2 * (s * C - c * S) * S * hc + s ^ 2 * s2 - S ^ 2 * s1

theorem between_zero {p q : V3 ℝ} : Spec.between p q 0 = p := by
  unfold Spec.between
  dsimp only
  split
  · rfl
  · rename_i hs
    apply V3.ext' <;> simp [hs]

theorem between_one {p q : V3 ℝ} (hp : Spec.OnSphere p) (hq : Spec.OnSphere q) (hw : arccos (Spec.inner3 p q) < π) : Spec.between p q 1 = q := by
  unfold Spec.between
  dsimp only
  split
  · rename_i hs
    have w0 := arccos_nonneg (Spec.inner3 p q)
    have : arccos (Spec.inner3 p q) = 0 := by
      rcases w0.lt_or_eq with h | h
      · exact absurd hs (ne_of_gt (sin_pos_of_pos_of_lt_pi h hw))
      · exact h.symm
    have h1 : Spec.inner3 p q = 1 := by
      have := arccos_eq_zero.1 this
      exact le_antisymm (inner_unit_bounds hp hq).2 this
    unfold Spec.OnSphere Spec.inner3 at *
    have e : (p.x - q.x) ^ 2 + (p.y - q.y) ^ 2 + (p.z - q.z) ^ 2 = 0 := by nlinarith
    apply V3.ext'
    · nlinarith [sq_nonneg (p.x - q.x), sq_nonneg (p.y - q.y), sq_nonneg (p.z - q.z)]
    · nlinarith [sq_nonneg (p.x - q.x), sq_nonneg (p.y - q.y), sq_nonneg (p.z - q.z)]
    · nlinarith [sq_nonneg (p.x - q.x), sq_nonneg (p.y - q.y), sq_nonneg (p.z - q.z)]
  · rename_i hs
    apply V3.ext' <;> simp [hs]

/-! ## Positions of the points of a grid -/

/-- What `fill` stores is the point on the arc. -/
theorem isSub_between (R : ℝ) (geod : Geod ℝ) (hg : Spec.IsSphere R geod) (X : Mat ℝ) (n k : Nat) (hk : k < n) (p q v : ℝ × ℝ)
    (hw : Spec.angle p q < π) (h : Spec.IsSub geod X n k p q v) :
    Spec.point v = Spec.between (Spec.point p) (Spec.point q) ((k + 1) / (n + 1)) ∧ -90 ≤ v.2 ∧ v.2 ≤ 90 := by
  obtain ⟨u, hu, hpu, hq, hs⟩ := hg.npts p q n
  obtain ⟨h1, -, -, r3, r4⟩ := hs k hk
  obtain ⟨⟨x1, x2⟩, y⟩ := h
  rw [y]
  refine ⟨?_, r3, r4⟩
  have e : Spec.point v = Spec.point (geod.npt p.1 p.2 q.1 q.2 n k) := by
    have ev : v = (v.1, (geod.npt p.1 p.2 q.1 q.2 n k).2) := Prod.ext rfl y
    by_cases hn : Spec.NonNeg X
    · have := x1 hn
      split at this
      · rw [ev, this]; exact point_shift _
      · rw [ev, this]
    · rw [ev, x2 hn]
  rw [e, h1]
  exact arcAt_between (point_unit p) (point_unit q) hw hq _

/-- The four corners of a box are in an open hemisphere whose centre is on the equator. -/
theorem box_hemi {lon1 lat1 lon2 lat2 : ℝ} (hb : Spec.Box lon1 lat1 lon2 lat2) : ∃ h : V3 ℝ, Spec.OnSphere h ∧ h.z = 0 ∧
    ∀ lon lat, (lon = lon1 ∨ lon = lon2) → (lat = lat1 ∨ lat = lat2) → 0 < Spec.inner3 h (Spec.point (lon, lat)) := by
  obtain ⟨hn, hs, z, hz⟩ := hb
  have hpi := Real.pi_pos
  obtain ⟨z1, z2⟩ := abs_lt.1 hz
  refine ⟨⟨cos (Spec.rad ((lon1 + (lon2 - 360 * z)) / 2)), sin (Spec.rad ((lon1 + (lon2 - 360 * z)) / 2)), 0⟩, ?_, rfl, fun lon lat h1 h2 => ?_⟩
  · unfold Spec.OnSphere Spec.inner3
    linear_combination sin_sq_add_cos_sq (Spec.rad ((lon1 + (lon2 - 360 * z)) / 2))
  have e : Spec.inner3 ⟨cos (Spec.rad ((lon1 + (lon2 - 360 * z)) / 2)), sin (Spec.rad ((lon1 + (lon2 - 360 * z)) / 2)), 0⟩ (Spec.point (lon, lat)) =
      cos (Spec.rad lat) * cos (Spec.rad lon - Spec.rad ((lon1 + (lon2 - 360 * z)) / 2)) := by
    rw [cos_sub]; unfold Spec.inner3 Spec.point; dsimp only; ring
  rw [e]
  have hlat : |lat| < 90 := by rcases h2 with rfl | rfl <;> assumption
  obtain ⟨l1, l2⟩ := abs_lt.1 hlat
  apply mul_pos
  · apply cos_pos_of_mem_Ioo
    unfold Spec.rad
    constructor <;> nlinarith
  · rcases h1 with rfl | rfl
    · apply cos_pos_of_mem_Ioo
      unfold Spec.rad
      constructor <;> nlinarith
    · have : cos (Spec.rad lon - Spec.rad ((lon1 + (lon - 360 * z)) / 2)) =
          cos (Spec.rad lon - Spec.rad ((lon1 + (lon - 360 * z)) / 2) - z * (2 * π)) := (cos_sub_int_mul_two_pi _ _).symm
      rw [this]
      apply cos_pos_of_mem_Ioo
      unfold Spec.rad
      constructor <;> nlinarith

theorem nat_div_unit {k n : Nat} (hk : k ≤ n) : (0 : ℝ) ≤ (k : ℝ) / n ∧ (k : ℝ) / n ≤ 1 := by
  constructor
  · positivity
  · rcases Nat.eq_zero_or_pos n with rfl | hn
    · simp
    · rw [div_le_one (by exact_mod_cast hn)]; exact_mod_cast hk

/-- Along one side or column. -/
theorem line_between (R : ℝ) (geod : Geod ℝ) (hg : Spec.IsSphere R geod) (X : Mat ℝ) (N : Nat) (hN : 1 ≤ N) (f : Nat → ℝ × ℝ)
    (hw : Spec.angle (f 0) (f N) < π) (h0 : |(f 0).2| ≤ 90) (h1 : |(f N).2| ≤ 90)
    (hs : ∀ k, k < N - 1 → Spec.IsSub geod X (N - 1) k (f 0) (f N) (f (k + 1))) (k : Nat) (hk : k ≤ N) :
    Spec.point (f k) = Spec.between (Spec.point (f 0)) (Spec.point (f N)) (k / N) ∧ |(f k).2| ≤ 90 := by
  have hN' : (N : ℝ) ≠ 0 := by
    have : N ≠ 0 := by omega
    exact_mod_cast this
  by_cases k0 : k = 0
  · subst k0
    refine ⟨?_, h0⟩
    rw [Nat.cast_zero, zero_div, between_zero]
  by_cases k1 : k = N
  · subst k1
    refine ⟨?_, h1⟩
    rw [div_self hN', between_one (point_unit _) (point_unit _) hw]
  have := isSub_between R geod hg X (N - 1) (k - 1) (by omega) _ _ _ hw (hs (k - 1) (by omega))
  rw [show k - 1 + 1 = k by omega] at this
  have e1 : ((k - 1 : Nat) : ℝ) + 1 = k := by
    have : ((k - 1 + 1 : Nat) : ℝ) = k := by rw [show k - 1 + 1 = k by omega]
    rw [← this]; push_cast; ring
  have e2 : ((N - 1 : Nat) : ℝ) + 1 = N := by
    have : ((N - 1 + 1 : Nat) : ℝ) = N := by rw [show N - 1 + 1 = N by omega]
    rw [← this]; push_cast; ring
  rw [e1, e2] at this
  exact ⟨this.1, abs_le.2 this.2⟩

/-- Where the half-cell points of a `mkgrid` grid are. -/
theorem mkgrid_sphere (R : ℝ) (geod : Geod ℝ) (hg : Spec.IsSphere R geod) (lon1 lat1 lon2 lat2 : ℝ) (m n : Nat) (hm : 1 ≤ m) (hn : 1 ≤ n)
    (hb : Spec.Box lon1 lat1 lon2 lat2) : ∃ (P : Nat → Nat → ℝ × ℝ) (g : Grid ℝ),
      mkgrid geod lon1 lat1 lon2 lat2 (m : Int) (n : Int) = .ok (g, (m : Int), (n : Int)) ∧
      (∀ a b, a ≤ 2 * m → b ≤ 2 * n → Spec.point (P a b) = Spec.boxPoint lon1 lat1 lon2 lat2 (a / (2 * m : Nat)) (b / (2 * n : Nat)) ∧
        |(P a b).2| < 90) ∧
      ∀ f, ∃ M, g f = .arr M ∧ ∀ i j, i < Spec.nrows f m → j < Spec.ncols f n →
        M.get i j = (⟨m, n, fun a b => P a.toNat b.toNat⟩ : Spec.Tile ℝ).entry geod.inv
          (Spec.quad geod ((⟨m, n, fun a b => P a.toNat b.toNat⟩ : Spec.Tile ℝ).usePlanar geod.inv)) f i j := by
  obtain ⟨P, g, planar, W, eq, p00, p10, p01, p11, hS, hN, hC, hW, hv, rfl⟩ := mkgrid_points geod lon1 lat1 lon2 lat2 m n hm hn
  obtain ⟨h, -, hz, hh⟩ := box_hemi hb
  have c00 := hh lon1 lat2 (.inl rfl) (.inr rfl)
  have c10 := hh lon2 lat2 (.inr rfl) (.inr rfl)
  have c01 := hh lon1 lat1 (.inl rfl) (.inl rfl)
  have c11 := hh lon2 lat1 (.inr rfl) (.inl rfl)
  have south := line_between R geod hg W (2 * m) (by omega) (fun a => P a 0)
    (by rw [p00, p10]; exact hemi_lt_pi (point_unit _) (point_unit _) c00 c10) (by rw [p00]; exact hb.south.le)
    (by rw [p10]; exact hb.south.le) hS
  have north := line_between R geod hg W (2 * m) (by omega) (fun a => P a (2 * n))
    (by rw [p01, p11]; exact hemi_lt_pi (point_unit _) (point_unit _) c01 c11) (by rw [p01]; exact hb.north.le)
    (by rw [p11]; exact hb.north.le) hN
  rw [p00, p10] at south
  rw [p01, p11] at north
  refine ⟨P, g, eq, fun a b ha hb' => ?_, hv⟩
  obtain ⟨s1, s2⟩ := south a ha
  obtain ⟨n1, n2⟩ := north a ha
  obtain ⟨t0, t1⟩ := nat_div_unit ha
  have hs := between_hemi (point_unit _) (point_unit _) c00 c10 t0 t1
  have hn' := between_hemi (point_unit _) (point_unit _) c01 c11 t0 t1
  rw [← s1] at hs
  rw [← n1] at hn'
  obtain ⟨e, l⟩ := line_between R geod hg W (2 * n) (by omega) (fun b => P a b) (hemi_lt_pi (point_unit _) (point_unit _) hs hn') s2 n2
    (fun k hk => hC a k ha hk) b hb'
  refine ⟨?_, ?_⟩
  · rw [e, s1, n1]; rfl
  · -- not at a pole: the pole is not in the hemisphere
    rcases l.lt_or_eq with l | l
    · exact l
    · exfalso
      have hemi : 0 < Spec.inner3 h (Spec.point (P a b)) := by
        rw [e]
        exact between_hemi (point_unit _) (point_unit _) hs hn' (nat_div_unit hb').1 (nat_div_unit hb').2
      have c0 : cos (Spec.rad (P a b).2) = 0 := by
        have h90 : cos (Spec.rad 90) = 0 := by
          have : Spec.rad 90 = π / 2 := by unfold Spec.rad; ring
          rw [this, cos_pi_div_two]
        rcases abs_eq (by norm_num : (0 : ℝ) ≤ 90) |>.1 l with l | l
        · rw [l, h90]
        · have : Spec.rad (-90) = - Spec.rad 90 := by unfold Spec.rad; ring
          rw [l, this, cos_neg, h90]
      unfold Spec.inner3 Spec.point at hemi
      dsimp only at hemi
      rw [c0, hz] at hemi
      simp at hemi

/-- **C96**: on a sphere, in the grid `mkgrid` makes of a box less than half a turn wide (poles excluded), corner `(i,j)` is at fraction `j/n` of the
great circle arc that joins the points at fraction `i/m` of the southern and the northern side, both sides being great circle arcs; the centre
of cell `(i,j)` is at the fractions `(i+½)/m` and `(j+½)/n`.  No point is at a pole. -/
theorem C96_positions (R : ℝ) (geod : Geod ℝ) (hg : Spec.IsSphere R geod) (lon1 lat1 lon2 lat2 : ℝ) (m n : Nat) (hm : 1 ≤ m) (hn : 1 ≤ n)
    (hb : Spec.Box lon1 lat1 lon2 lat2) : ∃ g XG YG XC YC,
      mkgrid geod lon1 lat1 lon2 lat2 (m : Int) (n : Int) = .ok (g, (m : Int), (n : Int)) ∧
      g .XG = .arr XG ∧ g .YG = .arr YG ∧ g .XC = .arr XC ∧ g .YC = .arr YC ∧
      (∀ i j : Nat, i ≤ m → j ≤ n → Spec.point (XG.get i j, YG.get i j) = Spec.boxPoint lon1 lat1 lon2 lat2 (i / m) (j / n) ∧
        |YG.get i j| < 90) ∧
      (∀ i j : Nat, i < m → j < n → Spec.point (XC.get i j, YC.get i j) =
        Spec.boxPoint lon1 lat1 lon2 lat2 ((i + 1 / 2) / m) ((j + 1 / 2) / n) ∧ |YC.get i j| < 90) := by
  obtain ⟨P, g, eq, hP, hv⟩ := mkgrid_sphere R geod hg lon1 lat1 lon2 lat2 m n hm hn hb
  obtain ⟨XG, h1, v1⟩ := hv .XG
  obtain ⟨YG, h2, v2⟩ := hv .YG
  obtain ⟨XC, h3, v3⟩ := hv .XC
  obtain ⟨YC, h4, v4⟩ := hv .YC
  have hm' : (m : ℝ) ≠ 0 := by
    have : m ≠ 0 := by omega
    exact_mod_cast this
  have hn' : (n : ℝ) ≠ 0 := by
    have : n ≠ 0 := by omega
    exact_mod_cast this
  refine ⟨g, XG, YG, XC, YC, eq, h1, h2, h3, h4, fun i j hi hj => ?_, fun i j hi hj => ?_⟩
  · rw [v1 i j (by simp only [Spec.nrows]; omega) (by simp only [Spec.ncols]; omega),
      v2 i j (by simp only [Spec.nrows]; omega) (by simp only [Spec.ncols]; omega)]
    show Spec.point (P (2 * (i : Int)).toNat (2 * (j : Int)).toNat) = _ ∧ |(P (2 * (i : Int)).toNat (2 * (j : Int)).toNat).2| < 90
    rw [show (2 * (i : Int)).toNat = 2 * i by omega, show (2 * (j : Int)).toNat = 2 * j by omega]
    obtain ⟨e, l⟩ := hP (2 * i) (2 * j) (by omega) (by omega)
    refine ⟨?_, l⟩
    rw [e]
    congr 1 <;> push_cast <;> field_simp
  · rw [v3 i j (by simp only [Spec.nrows]; omega) (by simp only [Spec.ncols]; omega),
      v4 i j (by simp only [Spec.nrows]; omega) (by simp only [Spec.ncols]; omega)]
    show Spec.point (P (2 * (i : Int) + 1).toNat (2 * (j : Int) + 1).toNat) = _ ∧ |(P (2 * (i : Int) + 1).toNat (2 * (j : Int) + 1).toNat).2| < 90
    rw [show (2 * (i : Int) + 1).toNat = 2 * i + 1 by omega, show (2 * (j : Int) + 1).toNat = 2 * j + 1 by omega]
    obtain ⟨e, l⟩ := hP (2 * i + 1) (2 * j + 1) (by omega) (by omega)
    refine ⟨?_, l⟩
    rw [e]
    congr 1 <;> push_cast <;> field_simp

namespace Spec
/-- The same place on the earth: equal latitudes, longitudes equal up to whole turns. -/
def SamePlace (lon lat lon' lat' : ℝ) : Prop := lat' = lat ∧ ∃ z : ℤ, lon' = lon + 360 * z
end Spec

theorem samePlace_of_point {lon lat lon' lat' : ℝ} (h : Spec.point (lon, lat) = Spec.point (lon', lat')) (h1 : |lat| < 90) (h2 : |lat'| < 90) :
    Spec.SamePlace lon lat lon' lat' := by
  obtain ⟨a1, a2⟩ := abs_lt.1 h2
  obtain ⟨e, z, hz⟩ := point_inj (lon', lat') (lon, lat) ⟨a1.le, a2.le⟩ h1 h.symm
  exact ⟨e, z, hz⟩

/-- **C97**: refining a `mkgrid` grid keeps its points.  With `k` times as many cells in x and `l` times as many in y, corner `(i,j)` of the coarse
grid is corner `(k i, l j)` of the fine one; when both factors are even the centre of coarse cell `(i,j)` is corner `(k i + k/2, l j + l/2)`, when
both are odd it is the centre of cell `(k i + (k-1)/2, l j + (l-1)/2)`. -/
theorem C97_refinement (R : ℝ) (geod : Geod ℝ) (hg : Spec.IsSphere R geod) (lon1 lat1 lon2 lat2 : ℝ) (m n k l : Nat) (hm : 1 ≤ m) (hn : 1 ≤ n)
    (hk : 1 ≤ k) (hl : 1 ≤ l) (hb : Spec.Box lon1 lat1 lon2 lat2) : ∃ g g' XG YG XC YC XG' YG' XC' YC',
      mkgrid geod lon1 lat1 lon2 lat2 (m : Int) (n : Int) = .ok (g, (m : Int), (n : Int)) ∧
      mkgrid geod lon1 lat1 lon2 lat2 ((k * m : Nat) : Int) ((l * n : Nat) : Int) = .ok (g', ((k * m : Nat) : Int), ((l * n : Nat) : Int)) ∧
      g .XG = .arr XG ∧ g .YG = .arr YG ∧ g .XC = .arr XC ∧ g .YC = .arr YC ∧
      g' .XG = .arr XG' ∧ g' .YG = .arr YG' ∧ g' .XC = .arr XC' ∧ g' .YC = .arr YC' ∧
      (∀ i j : Nat, i ≤ m → j ≤ n → Spec.SamePlace (XG.get i j) (YG.get i j) (XG'.get (k * i) (l * j)) (YG'.get (k * i) (l * j))) ∧
      (∀ k' l' i j : Nat, k = 2 * k' → l = 2 * l' → i < m → j < n →
        Spec.SamePlace (XC.get i j) (YC.get i j) (XG'.get (k * i + k') (l * j + l')) (YG'.get (k * i + k') (l * j + l'))) ∧
      (∀ k' l' i j : Nat, k = 2 * k' + 1 → l = 2 * l' + 1 → i < m → j < n →
        Spec.SamePlace (XC.get i j) (YC.get i j) (XC'.get (k * i + k') (l * j + l')) (YC'.get (k * i + k') (l * j + l'))) := by
  obtain ⟨g, XG, YG, XC, YC, e, h1, h2, h3, h4, hG, hC⟩ := C96_positions R geod hg lon1 lat1 lon2 lat2 m n hm hn hb
  obtain ⟨g', XG', YG', XC', YC', e', h1', h2', h3', h4', hG', hC'⟩ := C96_positions R geod hg lon1 lat1 lon2 lat2 (k * m) (l * n)
    (Nat.mul_pos hk hm) (Nat.mul_pos hl hn) hb
  have hm' : (m : ℝ) ≠ 0 := by
    have : m ≠ 0 := by omega
    exact_mod_cast this
  have hn' : (n : ℝ) ≠ 0 := by
    have : n ≠ 0 := by omega
    exact_mod_cast this
  have hk' : (k : ℝ) ≠ 0 := by
    have : k ≠ 0 := by omega
    exact_mod_cast this
  have hl' : (l : ℝ) ≠ 0 := by
    have : l ≠ 0 := by omega
    exact_mod_cast this
  refine ⟨g, g', XG, YG, XC, YC, XG', YG', XC', YC', e, e', h1, h2, h3, h4, h1', h2', h3', h4', fun i j hi hj => ?_,
    fun k' l' i j hk2 hl2 hi hj => ?_, fun k' l' i j hk2 hl2 hi hj => ?_⟩
  · obtain ⟨a, b⟩ := hG i j hi hj
    obtain ⟨a', b'⟩ := hG' (k * i) (l * j) (Nat.mul_le_mul_left k hi) (Nat.mul_le_mul_left l hj)
    refine samePlace_of_point ?_ b b'
    rw [a, a']
    congr 1 <;> push_cast <;> field_simp
  · obtain ⟨a, b⟩ := hC i j hi hj
    have b1 : k * i + k' ≤ k * m := by
      have : k * (i + 1) ≤ k * m := Nat.mul_le_mul_left k hi
      rw [Nat.mul_add] at this; omega
    have b2 : l * j + l' ≤ l * n := by
      have : l * (j + 1) ≤ l * n := Nat.mul_le_mul_left l hj
      rw [Nat.mul_add] at this; omega
    obtain ⟨a', b'⟩ := hG' (k * i + k') (l * j + l') b1 b2
    refine samePlace_of_point ?_ b b'
    have ek : (k : ℝ) = 2 * k' := by rw [hk2]; push_cast; ring
    have el : (l : ℝ) = 2 * l' := by rw [hl2]; push_cast; ring
    rw [a, a']
    congr 1 <;> push_cast <;> field_simp <;> first | (rw [ek]; ring) | (rw [el]; ring)
  · obtain ⟨a, b⟩ := hC i j hi hj
    have b1 : k * i + k' < k * m := by
      have : k * (i + 1) ≤ k * m := Nat.mul_le_mul_left k hi
      rw [Nat.mul_add] at this; omega
    have b2 : l * j + l' < l * n := by
      have : l * (j + 1) ≤ l * n := Nat.mul_le_mul_left l hj
      rw [Nat.mul_add] at this; omega
    obtain ⟨a', b'⟩ := hC' (k * i + k') (l * j + l') b1 b2
    refine samePlace_of_point ?_ b b'
    have ek : (k : ℝ) = 2 * k' + 1 := by rw [hk2]; push_cast; ring
    have el : (l : ℝ) = 2 * l' + 1 := by rw [hl2]; push_cast; ring
    rw [a, a']
    congr 1 <;> push_cast <;> field_simp <;> first | (rw [ek]; ring) | (rw [el]; ring)

/-! ## Rotation about the axis of the earth -/

/-- Rotation by `d` degrees. -/
noncomputable def Spec.spin (d : ℝ) (p : V3 ℝ) : V3 ℝ :=
  ⟨cos (Spec.rad d) * p.x - sin (Spec.rad d) * p.y, sin (Spec.rad d) * p.x + cos (Spec.rad d) * p.y, p.z⟩

theorem spin_inner (d : ℝ) (p q : V3 ℝ) : Spec.inner3 (Spec.spin d p) (Spec.spin d q) = Spec.inner3 p q := by
  unfold Spec.spin Spec.inner3
  dsimp only
  linear_combination (p.x * q.x + p.y * q.y) * sin_sq_add_cos_sq (Spec.rad d)

theorem spin_point (d lon lat : ℝ) : Spec.spin d (Spec.point (lon, lat)) = Spec.point (lon + d, lat) := by
  unfold Spec.spin Spec.point
  dsimp only
  rw [rad_add, cos_add, sin_add]
  apply V3.ext' <;> dsimp only <;> ring

theorem spin_between (d : ℝ) (p q : V3 ℝ) (t : ℝ) : Spec.spin d (Spec.between p q t) = Spec.between (Spec.spin d p) (Spec.spin d q) t := by
  unfold Spec.between
  rw [spin_inner]
  dsimp only
  split
  · rfl
  · unfold Spec.spin
    apply V3.ext' <;> dsimp only <;> ring

theorem dist2_inner (p q : V3 ℝ) : Spec.dist2 p q = Spec.inner3 p p + Spec.inner3 q q - 2 * Spec.inner3 p q := by
  unfold Spec.dist2 Spec.inner3; ring

theorem cart1_point (p : ℝ × ℝ) : lonlat2cart1 p.1 p.2 = Spec.point p := by
  have e : ∀ x : ℝ, Arith.radians x = Spec.rad x := by
    intro x; show x * π / 180 = _; unfold Spec.rad; ring
  unfold lonlat2cart1 Spec.point
  rw [e, e]; rfl

/-- The area formula in terms of points of the sphere. -/
theorem quad_point (R : ℝ) (geod : Geod ℝ) (hg : Spec.IsSphere R geod) (planar : Bool) (p q r s : ℝ × ℝ) : Spec.quad geod planar p q r s =
    (if planar then pquadCell else squadCell) (Spec.point p) (Spec.point q) (Spec.point r) (Spec.point s) * (R * R) := by
  unfold Spec.quad
  rw [cart1_point, cart1_point, cart1_point, cart1_point, hg.radius]; rfl

/-- Two tiles whose points correspond by a map of the sphere that keeps angles: same lengths, areas and choice of area formula. -/
theorem tile_congr (R : ℝ) (geod : Geod ℝ) (hg : Spec.IsSphere R geod) (T : V3 ℝ → V3 ℝ)
    (hT : ∀ p q, Spec.inner3 (T p) (T q) = Spec.inner3 p q) (m n : Nat) (P P' : Nat → Nat → ℝ × ℝ)
    (h : ∀ a b, a ≤ 2 * m → b ≤ 2 * n → Spec.point (P' a b) = T (Spec.point (P a b))) :
    (∀ a b, (⟨m, n, fun a b => P' a.toNat b.toNat⟩ : Spec.Tile ℝ).subX geod.inv a b = (⟨m, n, fun a b => P a.toNat b.toNat⟩ : Spec.Tile ℝ).subX geod.inv a b) ∧
    (∀ a b, (⟨m, n, fun a b => P' a.toNat b.toNat⟩ : Spec.Tile ℝ).subY geod.inv a b = (⟨m, n, fun a b => P a.toNat b.toNat⟩ : Spec.Tile ℝ).subY geod.inv a b) ∧
    (∀ planar a b, (⟨m, n, fun a b => P' a.toNat b.toNat⟩ : Spec.Tile ℝ).subA (Spec.quad geod planar) a b =
      (⟨m, n, fun a b => P a.toNat b.toNat⟩ : Spec.Tile ℝ).subA (Spec.quad geod planar) a b) ∧
    (⟨m, n, fun a b => P' a.toNat b.toNat⟩ : Spec.Tile ℝ).usePlanar geod.inv = (⟨m, n, fun a b => P a.toNat b.toNat⟩ : Spec.Tile ℝ).usePlanar geod.inv := by
  have hd : ∀ a b c d, a ≤ 2 * m → b ≤ 2 * n → c ≤ 2 * m → d ≤ 2 * n →
      geod.inv (P' a b).1 (P' a b).2 (P' c d).1 (P' c d).2 = geod.inv (P a b).1 (P a b).2 (P c d).1 (P c d).2 := by
    intro a b c d ha hb hc hd
    have e := hg.inv (P' a b) (P' c d)
    have e' := hg.inv (P a b) (P c d)
    unfold Spec.distance at e e'
    unfold Spec.angle at e e'
    rw [e, e', h a b ha hb, h c d hc hd, hT]
  have sx : ∀ a b, (⟨m, n, fun a b => P' a.toNat b.toNat⟩ : Spec.Tile ℝ).subX geod.inv a b = (⟨m, n, fun a b => P a.toNat b.toNat⟩ : Spec.Tile ℝ).subX geod.inv a b := by
    intro a b
    unfold Spec.Tile.subX
    split
    · rename_i hh
      dsimp only at hh
      exact hd _ _ _ _ (by omega) (by omega) (by omega) (by omega)
    · rfl
  have sy : ∀ a b, (⟨m, n, fun a b => P' a.toNat b.toNat⟩ : Spec.Tile ℝ).subY geod.inv a b = (⟨m, n, fun a b => P a.toNat b.toNat⟩ : Spec.Tile ℝ).subY geod.inv a b := by
    intro a b
    unfold Spec.Tile.subY
    split
    · rename_i hh
      dsimp only at hh
      exact hd _ _ _ _ (by omega) (by omega) (by omega) (by omega)
    · rfl
  refine ⟨sx, sy, fun planar a b => ?_, ?_⟩
  · unfold Spec.Tile.subA
    split
    · rename_i hh
      dsimp only at hh ⊢
      rw [quad_point R geod hg, quad_point R geod hg]
      rw [h _ _ (by omega) (by omega), h _ _ (by omega) (by omega), h _ _ (by omega) (by omega), h _ _ (by omega) (by omega)]
      cases planar
      · rw [if_neg Bool.false_ne_true, C15_rotation T hT]
      · rw [if_pos rfl, C14_rigid_motion T (fun p q => by rw [dist2_inner, dist2_inner, hT, hT, hT])]
    · rfl
  · unfold Spec.Tile.usePlanar Spec.Tile.xLengths Spec.Tile.yLengths
    simp only [sx, sy]

/-- **C98**: a box moved to the east by `d` degrees gives the same grid moved: every array other than the longitudes is the same, entry by entry, and
the longitudes differ by `d` and whole turns. -/
theorem C98_moved_east (R : ℝ) (geod : Geod ℝ) (hg : Spec.IsSphere R geod) (lon1 lat1 lon2 lat2 d : ℝ) (m n : Nat) (hm : 1 ≤ m) (hn : 1 ≤ n)
    (hb : Spec.Box lon1 lat1 lon2 lat2) : ∃ g g' : Grid ℝ,
      mkgrid geod lon1 lat1 lon2 lat2 (m : Int) (n : Int) = .ok (g, (m : Int), (n : Int)) ∧
      mkgrid geod (lon1 + d) lat1 (lon2 + d) lat2 (m : Int) (n : Int) = .ok (g', (m : Int), (n : Int)) ∧
      ∀ f, ∃ M M', g f = .arr M ∧ g' f = .arr M' ∧ ∀ i j, i < Spec.nrows f m → j < Spec.ncols f n →
        if f = .XC ∨ f = .XG then ∃ z : ℤ, M'.get i j = M.get i j + d + 360 * z else M'.get i j = M.get i j := by
  have hb' : Spec.Box (lon1 + d) lat1 (lon2 + d) lat2 := by
    obtain ⟨h1, h2, z, hz⟩ := hb
    refine ⟨h1, h2, z, ?_⟩
    rw [show lon2 + d - (lon1 + d) - 360 * (z : ℝ) = lon2 - lon1 - 360 * z by ring]
    exact hz
  obtain ⟨P, g, eq, hP, hv⟩ := mkgrid_sphere R geod hg lon1 lat1 lon2 lat2 m n hm hn hb
  obtain ⟨P', g', eq', hP', hv'⟩ := mkgrid_sphere R geod hg (lon1 + d) lat1 (lon2 + d) lat2 m n hm hn hb'
  have hs : ∀ a b, a ≤ 2 * m → b ≤ 2 * n → Spec.point (P' a b) = Spec.spin d (Spec.point (P a b)) := by
    intro a b ha hb
    rw [(hP a b ha hb).1, (hP' a b ha hb).1]
    unfold Spec.boxPoint
    rw [spin_between, spin_between, spin_between, spin_point, spin_point, spin_point, spin_point]
  obtain ⟨sx, sy, sa, up⟩ := tile_congr R geod hg (Spec.spin d) (spin_inner d) m n P P' hs
  have place : ∀ a b, a ≤ 2 * m → b ≤ 2 * n → (P' a b).2 = (P a b).2 ∧ ∃ z : ℤ, (P' a b).1 = (P a b).1 + d + 360 * z := by
    intro a b ha hb
    have e := hs a b ha hb
    rw [show P a b = ((P a b).1, (P a b).2) from rfl, spin_point] at e
    exact samePlace_of_point (lon := (P a b).1 + d) (lat := (P a b).2) (lon' := (P' a b).1) (lat' := (P' a b).2) e.symm
      (hP a b ha hb).2 (hP' a b ha hb).2
  refine ⟨g, g', eq, eq', fun f => ?_⟩
  obtain ⟨M, hM, v⟩ := hv f
  obtain ⟨M', hM', v'⟩ := hv' f
  refine ⟨M, M', hM, hM', fun i j hi hj => ?_⟩
  rw [v i j hi hj, v' i j hi hj, up]
  have a1 : (Spec.halfI f i).toNat ≤ 2 * m := by
    cases f <;> simp only [Spec.halfI, Spec.nrows] at hi ⊢ <;> simp <;> omega
  have b1 : (Spec.halfJ f j).toNat ≤ 2 * n := by
    cases f <;> simp only [Spec.halfJ, Spec.ncols] at hj ⊢ <;> simp <;> omega
  obtain ⟨pl, pz⟩ := place _ _ a1 b1
  unfold Spec.Tile.entry
  dsimp only
  simp only [sx, sy, sa]
  cases f <;> simp only [Spec.kind, reduceCtorEq, or_self, or_true, true_or, if_true, if_false] <;> first | exact pl | exact pz

/-- The north Atlantic box of C82 and the same box over the date line, 2 by 2 cells and 6 by 4 cells. -/
example : Spec.Box (-60) 50 (-20) 30 ∧ Spec.Box 160 50 (-160) 30 := by
  refine ⟨⟨?_, ?_, 0, ?_⟩, ⟨?_, ?_, -1, ?_⟩⟩ <;> rw [abs_lt] <;> norm_num

example : ∃ (geod : Geod ℝ) (g : Grid ℝ) (XG YG XC YC : Mat ℝ), Spec.IsSphere 6370997 geod ∧
    mkgrid geod 160 50 (-160) 30 (4 : Nat) (2 : Nat) = .ok (g, 4, 2) ∧ g .XG = .arr XG ∧ g .YG = .arr YG ∧ g .XC = .arr XC ∧ g .YC = .arr YC ∧
    Spec.point (XG.get 2 1, YG.get 2 1) = Spec.boxPoint 160 50 (-160) 30 (1 / 2) (1 / 2) ∧
    Spec.point (XC.get 0 0, YC.get 0 0) = Spec.boxPoint 160 50 (-160) 30 (1 / 8) (1 / 4) := by
  obtain ⟨geod, hg⟩ := C80_sphere_exists 6370997
  obtain ⟨g, XG, YG, XC, YC, e, h1, h2, h3, h4, hG, hC⟩ := C96_positions _ geod hg 160 50 (-160) 30 4 2 (by norm_num) (by norm_num)
    ⟨by rw [abs_lt]; norm_num, by rw [abs_lt]; norm_num, -1, by rw [abs_lt]; norm_num⟩
  refine ⟨geod, g, XG, YG, XC, YC, hg, e, h1, h2, h3, h4, ?_, ?_⟩
  · rw [(hG 2 1 (by norm_num) (by norm_num)).1]; norm_num
  · rw [(hC 0 0 (by norm_num) (by norm_num)).1]; norm_num

end SG
