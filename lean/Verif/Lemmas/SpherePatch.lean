import Verif.Props.SphereArea
/-! # Patches of the sphere made of arcs between two arcs -/

set_option linter.unusedSectionVars false
namespace SG
open Real

/-- `c p + d q` -/
def comb (c d : ℝ) (p q : V3 ℝ) : V3 ℝ := ⟨c * p.x + d * q.x, c * p.y + d * q.y, c * p.z + d * q.z⟩

theorem triple_comb1 (c d : ℝ) (p q b r : V3 ℝ) : Spec.triple (comb c d p q) b r = c * Spec.triple p b r + d * Spec.triple q b r := by
  unfold Spec.triple comb; dsimp only; ring
theorem triple_comb2 (c d : ℝ) (p q b r : V3 ℝ) : Spec.triple b (comb c d p q) r = c * Spec.triple b p r + d * Spec.triple b q r := by
  unfold Spec.triple comb; dsimp only; ring
theorem triple_comb3 (c d : ℝ) (p q b r : V3 ℝ) : Spec.triple b r (comb c d p q) = c * Spec.triple b r p + d * Spec.triple b r q := by
  unfold Spec.triple comb; dsimp only; ring
theorem triple_pair12 (c d e f : ℝ) (p q r : V3 ℝ) : Spec.triple (comb c d p q) (comb e f p q) r = (c * f - d * e) * Spec.triple p q r := by
  unfold Spec.triple comb; dsimp only; ring
theorem triple_pair23 (c d e f : ℝ) (p q r : V3 ℝ) : Spec.triple r (comb c d p q) (comb e f p q) = (c * f - d * e) * Spec.triple r p q := by
  unfold Spec.triple comb; dsimp only; ring
theorem triple_pair13 (c d e f : ℝ) (p q r : V3 ℝ) : Spec.triple (comb c d p q) r (comb e f p q) = (c * f - d * e) * Spec.triple p r q := by
  unfold Spec.triple comb; dsimp only; ring

theorem comb_pos {c d x y : ℝ} (hc : 0 ≤ c) (hd : 0 ≤ d) (h : 0 < c + d) (hx : 0 < x) (hy : 0 < y) : 0 < c * x + d * y := by
  rcases hc.lt_or_eq with hc' | hc'
  · nlinarith [mul_pos hc' hx, mul_nonneg hd hy.le]
  · subst hc'
    nlinarith [mul_pos (show 0 < d by linarith) hy]

/-- Coefficients of the points of an arc between two different points that are not antipodal. -/
structure Coefs (p q : V3 ℝ) (c d : ℝ → ℝ) : Prop where
  eq : ∀ t, Spec.between p q t = comb (c t) (d t) p q
  c0 : ∀ t, 0 ≤ t → t ≤ 1 → 0 ≤ c t
  d0 : ∀ t, 0 ≤ t → t ≤ 1 → 0 ≤ d t
  cd : ∀ t, 0 ≤ t → t ≤ 1 → 0 < c t + d t
  turn : ∀ s t, 0 ≤ s → s < t → t ≤ 1 → 0 < c s * d t - d s * c t
  mid : ∀ r s t, 0 ≤ r → r < s → s < t → t ≤ 1 → ∃ x y, 0 ≤ x ∧ 0 ≤ y ∧
    Spec.between p q s = comb x y (Spec.between p q r) (Spec.between p q t)

theorem coefs_exist (p q : V3 ℝ) (h1 : -1 < Spec.inner3 p q) (h2 : Spec.inner3 p q < 1) : ∃ c d, Coefs p q c d := by
  have w0 : 0 < arccos (Spec.inner3 p q) := arccos_pos.2 h2
  have w1 : arccos (Spec.inner3 p q) < π := by
    rw [← arccos_neg_one]
    exact arccos_lt_arccos (le_refl _) h1 h2.le
  refine ⟨fun t => sin ((1 - t) * arccos (Spec.inner3 p q)) / sin (arccos (Spec.inner3 p q)),
    fun t => sin (t * arccos (Spec.inner3 p q)) / sin (arccos (Spec.inner3 p q)), ?_⟩
  have hs : 0 < sin (arccos (Spec.inner3 p q)) := sin_pos_of_pos_of_lt_pi w0 w1
  have eq : ∀ t, Spec.between p q t = comb (sin ((1 - t) * arccos (Spec.inner3 p q)) / sin (arccos (Spec.inner3 p q)))
      (sin (t * arccos (Spec.inner3 p q)) / sin (arccos (Spec.inner3 p q))) p q := by
    intro t
    unfold Spec.between comb
    dsimp only
    rw [if_neg (ne_of_gt hs)]
    apply V3.ext' <;> dsimp only <;> field_simp
  have a0 : ∀ t, 0 ≤ t → t ≤ 1 → 0 ≤ sin (t * arccos (Spec.inner3 p q)) := fun t t0 t1 =>
    sin_nonneg_of_nonneg_of_le_pi (by positivity) (by nlinarith)
  have ap : ∀ t, 0 < t → t ≤ 1 → 0 < sin (t * arccos (Spec.inner3 p q)) := fun t t0 t1 =>
    sin_pos_of_pos_of_lt_pi (by positivity) (by nlinarith)
  generalize arccos (Spec.inner3 p q) = w at *
  refine ⟨eq, fun t t0 t1 => div_nonneg (a0 (1 - t) (by linarith) (by linarith)) hs.le, fun t t0 t1 => div_nonneg (a0 t t0 t1) hs.le,
    fun t t0 t1 => ?_, fun s t s0 st t1 => ?_, fun r s t r0 rs st t1 => ?_⟩
  · rw [← add_div]
    apply div_pos _ hs
    rcases t0.lt_or_eq with h | h
    · have := ap t h t1
      have := a0 (1 - t) (by linarith) (by linarith)
      linarith
    · subst h
      have := ap (1 - 0) (by norm_num) (by norm_num)
      simp only [zero_mul, sin_zero, add_zero]
      exact this
  · have e : sin ((1 - s) * w) / sin w * (sin (t * w) / sin w) - sin (s * w) / sin w * (sin ((1 - t) * w) / sin w) = sin ((t - s) * w) / sin w := by
      have e1 : sin ((1 - s) * w) = sin w * cos (s * w) - cos w * sin (s * w) := by rw [← sin_sub]; congr 1; ring
      have e2 : sin ((1 - t) * w) = sin w * cos (t * w) - cos w * sin (t * w) := by rw [← sin_sub]; congr 1; ring
      have e3 : sin ((t - s) * w) = sin (t * w) * cos (s * w) - cos (t * w) * sin (s * w) := by rw [← sin_sub]; congr 1; ring
      rw [e1, e2, e3]
      field_simp
      ring
    rw [e]
    exact div_pos (ap (t - s) (by linarith) (by linarith)) hs
  · have hp := ap (t - r) (by linarith) (by linarith)
    refine ⟨sin ((t - s) * w) / sin ((t - r) * w), sin ((s - r) * w) / sin ((t - r) * w), div_nonneg (a0 (t - s) (by linarith) (by linarith)) hp.le,
      div_nonneg (a0 (s - r) (by linarith) (by linarith)) hp.le, ?_⟩
    rw [eq r, eq s, eq t]
    have e1 : ∀ x, sin ((1 - x) * w) = sin w * cos (x * w) - cos w * sin (x * w) := by
      intro x; rw [← sin_sub]; congr 1; ring
    have e3 : ∀ x y, sin ((x - y) * w) = sin (x * w) * cos (y * w) - cos (x * w) * sin (y * w) := by
      intro x y; rw [← sin_sub]; congr 1; ring
    have q1 := sin_sq_add_cos_sq (r * w)
    have q2 := sin_sq_add_cos_sq (s * w)
    have q3 := sin_sq_add_cos_sq (t * w)
    have key1 : sin ((t - r) * w) * sin ((1 - s) * w) = sin ((t - s) * w) * sin ((1 - r) * w) + sin ((s - r) * w) * sin ((1 - t) * w) := by
      simp only [e1, e3]
      ring
    have key2 : sin ((t - r) * w) * sin (s * w) = sin ((t - s) * w) * sin (r * w) + sin ((s - r) * w) * sin (t * w) := by
      simp only [e3]
      ring
    have gen : ∀ A B C D E W T : ℝ, W ≠ 0 → T ≠ 0 → T * A = C * D + E * B → A / W = C / T * (D / W) + E / T * (B / W) := by
      intro A B C D E W T hW hT e
      field_simp
      linarith
    have k1 : sin ((1 - s) * w) / sin w = sin ((t - s) * w) / sin ((t - r) * w) * (sin ((1 - r) * w) / sin w) +
        sin ((s - r) * w) / sin ((t - r) * w) * (sin ((1 - t) * w) / sin w) :=
      gen _ _ _ _ _ _ _ (ne_of_gt hs) (ne_of_gt hp) key1
    have k2 : sin (s * w) / sin w = sin ((t - s) * w) / sin ((t - r) * w) * (sin (r * w) / sin w) +
        sin ((s - r) * w) / sin ((t - r) * w) * (sin (t * w) / sin w) :=
      gen _ _ _ _ _ _ _ (ne_of_gt hs) (ne_of_gt hp) key2
    unfold comb
    apply V3.ext' <;> dsimp only <;> rw [k1, k2] <;> ring

/-- Corners of a convex patch in the open hemisphere around `h`: south-west, south-east, north-east, north-west. -/
structure Patch (h SW SE NE NW : V3 ℝ) : Prop where
  center : Spec.OnSphere h
  sw : Spec.OnSphere SW ∧ 0 < Spec.inner3 h SW
  se : Spec.OnSphere SE ∧ 0 < Spec.inner3 h SE
  ne : Spec.OnSphere NE ∧ 0 < Spec.inner3 h NE
  nw : Spec.OnSphere NW ∧ 0 < Spec.inner3 h NW
  t1 : 0 < Spec.triple SW SE NE
  t2 : 0 < Spec.triple SW SE NW
  t3 : 0 < Spec.triple SW NE NW
  t4 : 0 < Spec.triple SE NE NW

/-- A point of the patch. -/
noncomputable def patchPoint (SW SE NE NW : V3 ℝ) (s t : ℝ) : V3 ℝ := Spec.between (Spec.between SW SE s) (Spec.between NW NE s) t

section
variable {h SW SE NE NW : V3 ℝ} (hp : Patch h SW SE NE NW)
include hp

theorem patch_south : ∃ c d, Coefs SW SE c d :=
  coefs_exist SW SE (inner_gt_neg_one hp.sw.1 hp.se.1 hp.sw.2 hp.se.2) (inner_lt_one_of_det SW SE NE hp.sw.1 hp.se.1 hp.ne.1 (ne_of_gt hp.t1))

theorem patch_north : ∃ c d, Coefs NW NE c d := by
  refine coefs_exist NW NE (inner_gt_neg_one hp.nw.1 hp.ne.1 hp.nw.2 hp.ne.2) ?_
  rw [inner3_comm]
  refine inner_lt_one_of_det NE NW SW hp.ne.1 hp.nw.1 hp.sw.1 ?_
  rw [triple_rot]
  exact ne_of_gt hp.t3

/-- The four turns of a strip between two columns. -/
theorem patch_strip (s s' : ℝ) (h0 : 0 ≤ s) (h1 : s < s') (h2 : s' ≤ 1) :
    0 < Spec.triple (Spec.between SW SE s) (Spec.between SW SE s') (Spec.between NW NE s') ∧
    0 < Spec.triple (Spec.between SW SE s) (Spec.between SW SE s') (Spec.between NW NE s) ∧
    0 < Spec.triple (Spec.between SW SE s') (Spec.between NW NE s') (Spec.between NW NE s) ∧
    0 < Spec.triple (Spec.between SW SE s) (Spec.between NW NE s') (Spec.between NW NE s) := by
  obtain ⟨c, d, hS⟩ := patch_south hp
  obtain ⟨e, f, hN⟩ := patch_north hp
  rw [hS.eq, hS.eq, hN.eq, hN.eq]
  have k1 := hS.turn s s' h0 h1 h2
  have k2 := hN.turn s s' h0 h1 h2
  refine ⟨?_, ?_, ?_, ?_⟩
  · rw [triple_pair12, triple_comb3]
    exact mul_pos k1 (comb_pos (hN.c0 _ (by linarith) h2) (hN.d0 _ (by linarith) h2) (hN.cd _ (by linarith) h2) hp.t2 hp.t1)
  · rw [triple_pair12, triple_comb3]
    exact mul_pos k1 (comb_pos (hN.c0 _ h0 (by linarith)) (hN.d0 _ h0 (by linarith)) (hN.cd _ h0 (by linarith)) hp.t2 hp.t1)
  · rw [triple_pair23, triple_comb1]
    have := comb_pos (hS.c0 _ (by linarith) h2) (hS.d0 _ (by linarith) h2) (hS.cd _ (by linarith) h2) hp.t3 hp.t4
    have s1 : Spec.triple SW NW NE = - Spec.triple SW NE NW := by unfold Spec.triple; ring
    have s2 : Spec.triple SE NW NE = - Spec.triple SE NE NW := by unfold Spec.triple; ring
    rw [s1, s2]
    nlinarith
  · rw [triple_pair23, triple_comb1]
    have := comb_pos (hS.c0 _ h0 (by linarith)) (hS.d0 _ h0 (by linarith)) (hS.cd _ h0 (by linarith)) hp.t3 hp.t4
    have s1 : Spec.triple SW NW NE = - Spec.triple SW NE NW := by unfold Spec.triple; ring
    have s2 : Spec.triple SE NW NE = - Spec.triple SE NE NW := by unfold Spec.triple; ring
    rw [s1, s2]
    nlinarith

theorem patch_S (s : ℝ) (h0 : 0 ≤ s) (h1 : s ≤ 1) : Spec.OnSphere (Spec.between SW SE s) ∧ 0 < Spec.inner3 h (Spec.between SW SE s) :=
  ⟨between_unit hp.sw.1 hp.se.1 s, between_hemi hp.sw.1 hp.se.1 hp.sw.2 hp.se.2 h0 h1⟩

theorem patch_N (s : ℝ) (h0 : 0 ≤ s) (h1 : s ≤ 1) : Spec.OnSphere (Spec.between NW NE s) ∧ 0 < Spec.inner3 h (Spec.between NW NE s) :=
  ⟨between_unit hp.nw.1 hp.ne.1 s, between_hemi hp.nw.1 hp.ne.1 hp.nw.2 hp.ne.2 h0 h1⟩

theorem patch_col (s : ℝ) (h0 : 0 ≤ s) (h1 : s ≤ 1) : ∃ c d, Coefs (Spec.between SW SE s) (Spec.between NW NE s) c d := by
  have a := patch_S hp s h0 h1
  have b := patch_N hp s h0 h1
  refine coefs_exist _ _ (inner_gt_neg_one a.1 b.1 a.2 b.2) ?_
  rcases h1.lt_or_eq with h1' | h1'
  · have k := (patch_strip hp s 1 h0 h1' (le_refl _)).2.1
    have c := patch_S hp 1 (by norm_num) (le_refl _)
    rw [inner3_comm]
    refine inner_lt_one_of_det _ _ (Spec.between SW SE 1) b.1 a.1 c.1 ?_
    rw [← triple_rot]
    exact ne_of_gt k
  · subst h1'
    have k := (patch_strip hp 0 1 (le_refl _) (by norm_num) (le_refl _)).1
    have c := patch_S hp 0 (le_refl _) (by norm_num)
    refine inner_lt_one_of_det _ _ (Spec.between SW SE 0) a.1 b.1 c.1 ?_
    rw [triple_rot]
    exact ne_of_gt k

theorem patch_inside (s t : ℝ) (h0 : 0 ≤ s) (h1 : s ≤ 1) (t0 : 0 ≤ t) (t1 : t ≤ 1) :
    Spec.OnSphere (patchPoint SW SE NE NW s t) ∧ 0 < Spec.inner3 h (patchPoint SW SE NE NW s t) := by
  have a := patch_S hp s h0 h1
  have b := patch_N hp s h0 h1
  exact ⟨between_unit a.1 b.1 t, between_hemi a.1 b.1 a.2 b.2 t0 t1⟩

/-- Cells of the patch turn to the left. -/
theorem patch_turns (s s' t t' : ℝ) (h0 : 0 ≤ s) (h1 : s < s') (h2 : s' ≤ 1) (t0 : 0 ≤ t) (t1 : t < t') (t2 : t' ≤ 1) :
    Spec.LeftTurn (patchPoint SW SE NE NW s t) (patchPoint SW SE NE NW s' t) (patchPoint SW SE NE NW s' t') ∧
    Spec.LeftTurn (patchPoint SW SE NE NW s t) (patchPoint SW SE NE NW s' t') (patchPoint SW SE NE NW s t') := by
  obtain ⟨q1, q2, q3, q4⟩ := patch_strip hp s s' h0 h1 h2
  obtain ⟨c, d, hC⟩ := patch_col hp s h0 (by linarith)
  obtain ⟨e, f, hC'⟩ := patch_col hp s' (by linarith) h2
  unfold Spec.LeftTurn patchPoint
  rw [hC.eq, hC.eq, hC'.eq, hC'.eq]
  constructor
  · rw [triple_pair23, triple_comb1]
    refine mul_pos (hC'.turn t t' t0 t1 t2) (comb_pos (hC.c0 t t0 (by linarith)) (hC.d0 t t0 (by linarith)) (hC.cd t t0 (by linarith)) q1 ?_)
    rw [← triple_rot]
    exact q3
  · rw [triple_pair13, triple_comb2]
    exact mul_pos (hC.turn t t' t0 t1 t2) (comb_pos (hC'.c0 t' (by linarith) t2) (hC'.d0 t' (by linarith) t2) (hC'.cd t' (by linarith) t2) q2 q4)

end

/-- Contributions along an arc add up. -/
theorem sum_side (h p q : V3 ℝ) (hh : Spec.OnSphere h) (hp : Spec.OnSphere p ∧ 0 < Spec.inner3 h p) (hq : Spec.OnSphere q ∧ 0 < Spec.inner3 h q)
    (c d : ℝ → ℝ) (hc : Coefs p q c d) (t : Nat → ℝ) (N : Nat) (t0 : 0 ≤ t 0) (mono : ∀ k, k < N → t k < t (k + 1)) (t1 : t N ≤ 1) :
    ∑ k ∈ Finset.range N, side h (Spec.between p q (t k)) (Spec.between p q (t (k + 1))) = side h (Spec.between p q (t 0)) (Spec.between p q (t N)) := by
  have up : ∀ a b, a ≤ b → b ≤ N → t a ≤ t b := by
    intro a b hab
    induction b, hab using Nat.le_induction with
    | base => intro _; exact le_refl _
    | succ b hab ih => intro hb; exact le_trans (ih (by omega)) (mono b (by omega)).le
  have inn : ∀ k, k ≤ N → Spec.OnSphere (Spec.between p q (t k)) ∧ 0 < Spec.inner3 h (Spec.between p q (t k)) := fun k hk =>
    ⟨between_unit hp.1 hq.1 _, between_hemi hp.1 hq.1 hp.2 hq.2 (le_trans t0 (up 0 k (by omega) hk)) (le_trans (up k N hk (le_refl _)) t1)⟩
  have gen : ∀ k, k ≤ N → ∑ k ∈ Finset.range k, side h (Spec.between p q (t k)) (Spec.between p q (t (k + 1))) =
      side h (Spec.between p q (t 0)) (Spec.between p q (t k)) := by
    intro k
    induction k with
    | zero =>
      intro _
      have z := inn 0 (by omega)
      have := side_swap z.1 z.1 z.2 z.2
      rw [Finset.sum_range_zero]
      linarith
    | succ k ih =>
      intro hk
      rw [Finset.sum_range_succ, ih (by omega)]
      by_cases k0 : k = 0
      · subst k0
        have z := inn 0 (by omega)
        have := side_swap z.1 z.1 z.2 z.2
        rw [show 0 + 1 = 1 from rfl]
        linarith
      · have l1 : t 0 < t k := lt_of_lt_of_le (mono 0 (by omega)) (up 1 k (by omega) (by omega))
        obtain ⟨x, y, x0, y0, e⟩ := hc.mid (t 0) (t k) (t (k + 1)) t0 l1 (mono k (by omega)) (le_trans (up (k + 1) N hk (le_refl _)) t1)
        have z0 := inn 0 (by omega)
        have z1 := inn k (by omega)
        have z2 := inn (k + 1) hk
        exact side_add h _ _ _ hh z0.1 z1.1 z2.1 z0.2 z1.2 z2.2 x y x0 y0 e
  exact gen N (le_refl _)

/-- The total area of a strip of a patch cut into cells in any way. -/
theorem patch_total {h SW SE NE NW : V3 ℝ} (hp : Patch h SW SE NE NW) (M N : Nat) (hM : 0 < M) (_ : 0 < N) (s t : Nat → ℝ) (s0 : 0 ≤ s 0)
    (smono : ∀ k, k < M → s k < s (k + 1)) (s1 : s M ≤ 1) (t0 : t 0 = 0) (tmono : ∀ k, k < N → t k < t (k + 1)) (t1 : t N = 1) :
    (∀ a b, a < M → b < N → 0 < squadCell (patchPoint SW SE NE NW (s a) (t b)) (patchPoint SW SE NE NW (s (a + 1)) (t b))
        (patchPoint SW SE NE NW (s (a + 1)) (t (b + 1))) (patchPoint SW SE NE NW (s a) (t (b + 1)))) ∧
    ∑ a ∈ Finset.range M, ∑ b ∈ Finset.range N, squadCell (patchPoint SW SE NE NW (s a) (t b)) (patchPoint SW SE NE NW (s (a + 1)) (t b))
        (patchPoint SW SE NE NW (s (a + 1)) (t (b + 1))) (patchPoint SW SE NE NW (s a) (t (b + 1))) =
      squadCell (Spec.between SW SE (s 0)) (Spec.between SW SE (s M)) (Spec.between NW NE (s M)) (Spec.between NW NE (s 0)) := by
  have sup : ∀ a b, a ≤ b → b ≤ M → s a ≤ s b := by
    intro a b hab
    induction b, hab using Nat.le_induction with
    | base => intro _; exact le_refl _
    | succ b hab ih => intro hb; exact le_trans (ih (by omega)) (smono b (by omega)).le
  have tup : ∀ a b, a ≤ b → b ≤ N → t a ≤ t b := by
    intro a b hab
    induction b, hab using Nat.le_induction with
    | base => intro _; exact le_refl _
    | succ b hab ih => intro hb; exact le_trans (ih (by omega)) (tmono b (by omega)).le
  have sr : ∀ k, k ≤ M → 0 ≤ s k ∧ s k ≤ 1 := fun k hk => ⟨le_trans s0 (sup 0 k (by omega) hk), le_trans (sup k M hk (le_refl _)) s1⟩
  have tr : ∀ k, k ≤ N → 0 ≤ t k ∧ t k ≤ 1 := fun k hk => ⟨t0 ▸ tup 0 k (by omega) hk, t1 ▸ tup k N hk (le_refl _)⟩
  have turns := fun a b (ha : a < M) (hb : b < N) => patch_turns hp (s a) (s (a + 1)) (t b) (t (b + 1)) (sr a (by omega)).1 (smono a ha)
    (sr (a + 1) (by omega)).2 (tr b (by omega)).1 (tmono b hb) (tr (b + 1) (by omega)).2
  have good : Spec.GoodMesh h M N (fun a b => patchPoint SW SE NE NW (s a) (t b)) :=
    ⟨hp.center, fun a b ha hb => patch_inside hp (s a) (t b) (sr a ha).1 (sr a ha).2 (tr b hb).1 (tr b hb).2,
      fun a b ha hb => (turns a b ha hb).1, fun a b ha hb => (turns a b ha hb).2⟩
  constructor
  · intro a b ha hb
    have A := good.inside a b (by omega) (by omega)
    have B := good.inside (a + 1) b (by omega) (by omega)
    have C := good.inside (a + 1) (b + 1) (by omega) (by omega)
    have D := good.inside a (b + 1) (by omega) (by omega)
    refine (squadCell_sides (h := h) ⟨hp.center, fun p hp => ?_⟩ (turns a b ha hb).1 (turns a b ha hb).2).2
    simp only [List.mem_cons, List.not_mem_nil, or_false] at hp
    rcases hp with rfl | rfl | rfl | rfl <;> assumption
  · have ms := mesh_sum good
    rw [ms]
    obtain ⟨c, d, hS⟩ := patch_south hp
    obtain ⟨e, f, hNo⟩ := patch_north hp
    obtain ⟨c', d', hW⟩ := patch_col hp (s 0) (sr 0 (by omega)).1 (sr 0 (by omega)).2
    obtain ⟨e', f', hE⟩ := patch_col hp (s M) (sr M (le_refl _)).1 (sr M (le_refl _)).2
    have A := patch_S hp (s 0) (sr 0 (by omega)).1 (sr 0 (by omega)).2
    have B := patch_S hp (s M) (sr M (le_refl _)).1 (sr M (le_refl _)).2
    have C := patch_N hp (s M) (sr M (le_refl _)).1 (sr M (le_refl _)).2
    have D := patch_N hp (s 0) (sr 0 (by omega)).1 (sr 0 (by omega)).2
    have p0 : ∀ x, patchPoint SW SE NE NW x 0 = Spec.between SW SE x := fun x => between_zero
    have p1 : ∀ a, a ≤ M → patchPoint SW SE NE NW (s a) 1 = Spec.between NW NE (s a) := fun a ha =>
      between_one (patch_S hp _ (sr a ha).1 (sr a ha).2).1 (patch_N hp _ (sr a ha).1 (sr a ha).2).1
        (hemi_lt_pi (patch_S hp _ (sr a ha).1 (sr a ha).2).1 (patch_N hp _ (sr a ha).1 (sr a ha).2).1
          (patch_S hp _ (sr a ha).1 (sr a ha).2).2 (patch_N hp _ (sr a ha).1 (sr a ha).2).2)
    have b1 : ∑ i ∈ Finset.range M, side h (patchPoint SW SE NE NW (s i) (t 0)) (patchPoint SW SE NE NW (s (i + 1)) (t 0)) =
        side h (Spec.between SW SE (s 0)) (Spec.between SW SE (s M)) := by
      rw [t0]
      simp only [p0]
      exact sum_side h SW SE hp.center hp.sw hp.se c d hS s M s0 smono s1
    have b2 : ∑ i ∈ Finset.range M, side h (patchPoint SW SE NE NW (s i) (t N)) (patchPoint SW SE NE NW (s (i + 1)) (t N)) =
        side h (Spec.between NW NE (s 0)) (Spec.between NW NE (s M)) := by
      rw [t1, ← sum_side h NW NE hp.center hp.nw hp.ne e f hNo s M s0 smono s1]
      refine Finset.sum_congr rfl fun i hi => ?_
      rw [Finset.mem_range] at hi
      rw [p1 i (by omega), p1 (i + 1) (by omega)]
    have b3 : ∑ j ∈ Finset.range N, side h (patchPoint SW SE NE NW (s M) (t j)) (patchPoint SW SE NE NW (s M) (t (j + 1))) =
        side h (Spec.between SW SE (s M)) (Spec.between NW NE (s M)) := by
      have := sum_side h _ _ hp.center B C e' f' hE t N (by rw [t0]) tmono (by rw [t1])
      rw [t0, t1] at this
      have z0 := p0 (s M)
      have z1 := p1 M (le_refl _)
      unfold patchPoint at z0 z1 ⊢
      rw [this, z0, z1]
    have b4 : ∑ j ∈ Finset.range N, side h (patchPoint SW SE NE NW (s 0) (t j)) (patchPoint SW SE NE NW (s 0) (t (j + 1))) =
        side h (Spec.between SW SE (s 0)) (Spec.between NW NE (s 0)) := by
      have := sum_side h _ _ hp.center A D c' d' hW t N (by rw [t0]) tmono (by rw [t1])
      rw [t0, t1] at this
      have z0 := p0 (s 0)
      have z1 := p1 0 (by omega)
      unfold patchPoint at z0 z1 ⊢
      rw [this, z0, z1]
    have l : s 0 < s M := lt_of_lt_of_le (smono 0 hM) (sup 1 M hM (le_refl _))
    obtain ⟨q1, -, -, q4⟩ := patch_strip hp (s 0) (s M) s0 l s1
    have fin := (squadCell_sides (h := h) (A := Spec.between SW SE (s 0)) (B := Spec.between SW SE (s M)) (C := Spec.between NW NE (s M))
      (D := Spec.between NW NE (s 0)) ⟨hp.center, fun p hp => by
        simp only [List.mem_cons, List.not_mem_nil, or_false] at hp
        rcases hp with rfl | rfl | rfl | rfl <;> assumption⟩ q1 q4).1
    rw [fin, Finset.sum_sub_distrib, Finset.sum_sub_distrib, b1, b2, b3, b4, side_swap D.1 C.1 D.2 C.2, side_swap A.1 D.1 A.2 D.2]
    ring

end SG
