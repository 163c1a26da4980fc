import Verif.Props.SphereRegrid
import Verif.Props.RegridSource
/-! # C105: `regrid` of a whole `mkgrid` grid (exact arithmetic, sphere)

A grid made by `mkgrid` is refined as a whole by `regrid`, called with the same two corners. -/

set_option linter.unusedSectionVars false
namespace SG
open Real

instance : FloatOrder ℝ where
  irrefl a := by
    show decide (a < a) = false
    simp
  trans a b c h1 h2 := by
    have h1 : decide (a < b) = true := h1
    have h2 : decide (b < c) = true := h2
    rw [decide_eq_true_iff] at h1 h2
    exact decide_eq_true (lt_trans h1 h2)
  le_lt_trans a b c h1 h2 := by
    have h1 : decide (a ≤ b) = true := h1
    have h2 : decide (b < c) = true := h2
    rw [decide_eq_true_iff] at h1 h2
    exact decide_eq_true (lt_of_le_of_lt h1 h2)

/-! ## Whole tiles -/

/-- Refining a whole tile, the query points being closest to its NW and SE corner points. -/
theorem regrid_whole {F : Type} [PyFloat F] [F64 F] [FloatOrder F] [ZeroLaw F] (geod : Geod F) (fs : Files F) (a : RegridArgs F) (d : MatDict F)
    (hsrc : readSource fs a = .ok d) (hw : d.xg.WF) (hs : Spec.SameShape d.xg d.yg)
    (m n ls lt : Nat) (hr : d.xg.mat.rows = m + 1) (hc : d.xg.mat.cols = n + 1) (hm : 0 < m) (hn : 0 < n)
    (els : a.lonSub = ls) (elt : a.latSub = lt) (hls : 0 < ls) (hlt : 0 < lt)
    (u1 : Spec.UniqueNearest geod a.lon1 a.lat1 (d.xg, d.yg) 0 n)
    (u2 : Spec.UniqueNearest geod a.lon2 a.lat2 (d.xg, d.yg) m 0) (fuel : Nat) (hf : 4 ≤ fuel) :
    ∃ dict' g XG YG, regrid geod fs fuel a = some (dict', .ok (g, ((m * ls : Nat) : Int), ((n * lt : Nat) : Int))) ∧
      g .XG = .arr XG ∧ g .YG = .arr YG ∧ Spec.Complete g (m * ls) (n * lt) ∧
      ∀ x y, x ≤ m → y ≤ n → XG.get (x * ls) (y * lt) = d.xg.mat.get x y ∧ YG.get (x * ls) (y * lt) = d.yg.mat.get x y := by
  obtain ⟨e1, n1⟩ := nearest_unique geod _ _ (d.xg, d.yg) hw hs _ _ u1
  obtain ⟨e2, n2⟩ := nearest_unique geod _ _ (d.xg, d.yg) hw hs _ _ u2
  obtain ⟨dict', g, ni', nj', h⟩ := C34_regrid_succeeds geod fs a d hsrc hw 0 n m 0 e1 e2 n1 n2 (by omega)
    (by omega) (by omega) (by omega) fuel hf
  obtain ⟨k, c, c', hk, hl, hdg, hal, -, -, i0, j0, p, q, ls', lt', hc', hp, hq, -, -, hls', hlt', hi, hj,
    hni', hnj', hcomp, XG, YG, x1, y1, hv⟩ := regrid_success geod fs fuel a d hsrc hw dict' g ni' nj' h
  have hcc : c = ((((0 : Nat) : Int), (n : Int)), ((m : Int), ((0 : Nat) : Int))) := by
    unfold locate at hl
    rw [n1, n2] at hl
    exact (Except.ok.inj hl).symm
  subst hcc
  obtain ⟨es, ec⟩ := alignsAfter_unique _ _ _ _ _ _ _ _ _ _ _ hal
    (alignsAfter_zero _ _ _ _ _ _ _ hdg hl ((aligned_iff _).2 (by dsimp only; omega)))
  rw [hc'] at ec
  simp only [Prod.mk.injEq] at ec
  obtain ⟨⟨ea, eb⟩, ⟨ed, ef⟩⟩ := ec
  obtain rfl : i0 = 0 := by omega
  obtain rfl : j0 = 0 := by omega
  obtain rfl : p = m := by omega
  obtain rfl : q = n := by omega
  obtain rfl : ls' = ls := by omega
  obtain rfl : lt' = lt := by omega
  subst hni' hnj'
  rw [es] at hv
  refine ⟨dict', g, XG, YG, h, x1, y1, hcomp, fun x y hx hy => ?_⟩
  have := hv x y hx hy
  rw [Nat.zero_add, Nat.zero_add] at this
  exact this

/-! ## The cells of a `mkgrid` grid -/

/-- Cells of a patch are convex. -/
theorem patch_cell_convex {h SW SE NE NW : V3 ℝ} (hp : Patch h SW SE NE NW) (s s' t t' : ℝ) (h0 : 0 ≤ s) (h1 : s < s') (h2 : s' ≤ 1)
    (t0 : 0 ≤ t) (t1 : t < t') (t2 : t' ≤ 1) :
    Spec.ConvexQuad (patchPoint SW SE NE NW s t) (patchPoint SW SE NE NW s' t) (patchPoint SW SE NE NW s' t') (patchPoint SW SE NE NW s t') := by
  have i1 := patch_inside hp s t h0 (by linarith) t0 (by linarith)
  have i2 := patch_inside hp s' t (by linarith) h2 t0 (by linarith)
  have i3 := patch_inside hp s' t' (by linarith) h2 (by linarith) t2
  have i4 := patch_inside hp s t' h0 (by linarith) (by linarith) t2
  obtain ⟨q1, q2, q3, q4⟩ := patch_strip hp s s' h0 h1 h2
  obtain ⟨c, d, hC⟩ := patch_col hp s h0 (by linarith)
  obtain ⟨e, f, hC'⟩ := patch_col hp s' (by linarith) h2
  have r1 := patch_turns hp s s' t t' h0 h1 h2 t0 t1 t2
  have bcd : Spec.LeftTurn (patchPoint SW SE NE NW s' t) (patchPoint SW SE NE NW s' t') (patchPoint SW SE NE NW s t') := by
    unfold Spec.LeftTurn patchPoint
    rw [hC.eq, hC'.eq, hC'.eq, triple_pair12, triple_comb3]
    have q1' := q1
    rw [← triple_rot] at q1'
    exact mul_pos (hC'.turn t t' t0 t1 t2) (comb_pos (hC.c0 t' (by linarith) t2) (hC.d0 t' (by linarith) t2) (hC.cd t' (by linarith) t2)
      (by have := triple_rot (Spec.between SW SE s) (Spec.between SW SE s') (Spec.between NW NE s'); linarith) q3)
  have abd : 0 < Spec.triple (patchPoint SW SE NE NW s t) (patchPoint SW SE NE NW s' t) (patchPoint SW SE NE NW s t') := by
    unfold patchPoint
    rw [hC.eq, hC.eq, hC'.eq, triple_pair13, triple_comb2]
    exact mul_pos (hC.turn t t' t0 t1 t2) (comb_pos (hC'.c0 t t0 (by linarith)) (hC'.d0 t t0 (by linarith)) (hC'.cd t t0 (by linarith)) q2 q4)
  refine ⟨⟨h, hp.center, ?_⟩, r1.1, bcd, ?_, ?_⟩
  · intro x hx
    simp only [List.mem_cons, List.not_mem_nil, or_false] at hx
    rcases hx with rfl | rfl | rfl | rfl
    · exact i1
    · exact i2
    · exact i3
    · exact i4
  · have a := r1.2
    have b := triple_rot (patchPoint SW SE NE NW s t) (patchPoint SW SE NE NW s' t') (patchPoint SW SE NE NW s t')
    unfold Spec.LeftTurn at *
    linarith
  · have b := triple_rot (patchPoint SW SE NE NW s t') (patchPoint SW SE NE NW s t) (patchPoint SW SE NE NW s' t)
    unfold Spec.LeftTurn at *
    linarith

/-- No other point of a patch coincides with its NW corner or with its SE corner. -/
theorem patch_corners_apart {h SW SE NE NW : V3 ℝ} (hp : Patch h SW SE NE NW) (s t : ℝ) (h0 : 0 ≤ s) (h1 : s ≤ 1) (t0 : 0 ≤ t) (t1 : t ≤ 1) :
    ((0 < s ∨ t < 1) → Spec.inner3 NW (patchPoint SW SE NE NW s t) < 1) ∧ ((s < 1 ∨ 0 < t) → Spec.inner3 SE (patchPoint SW SE NE NW s t) < 1) := by
  have w : ∀ p q : V3 ℝ, (Spec.OnSphere p ∧ 0 < Spec.inner3 h p) → (Spec.OnSphere q ∧ 0 < Spec.inner3 h q) → Spec.between p q 1 = q :=
    fun p q a b => between_one a.1 b.1 (hemi_lt_pi a.1 b.1 a.2 b.2)
  have x := patch_inside hp s t h0 h1 t0 t1
  constructor
  · intro hh
    rcases h0.lt_or_eq with hs | rfl
    · obtain ⟨q1, q2, q3, q4⟩ := patch_strip hp 0 s (le_refl _) hs h1
      obtain ⟨e, f, hC⟩ := patch_col hp s h0 h1
      rw [between_zero, between_zero] at q4
      rw [between_zero, between_zero] at q2
      have k : 0 < Spec.triple SW (patchPoint SW SE NE NW s t) NW := by
        unfold patchPoint
        rw [hC.eq, triple_comb2]
        exact comb_pos (hC.c0 t t0 t1) (hC.d0 t t0 t1) (hC.cd t t0 t1) q2 q4
      rw [inner3_comm]
      refine inner_lt_one_of_det _ NW SW x.1 hp.nw.1 hp.sw.1 ?_
      rw [triple_rot, triple_rot]
      have := triple_rot SW (patchPoint SW SE NE NW s t) NW
      have := triple_rot (patchPoint SW SE NE NW s t) NW SW
      have := triple_rot NW SW (patchPoint SW SE NE NW s t)
      apply ne_of_gt; linarith
    · have ht : t < 1 := by rcases hh with h | h <;> [exact absurd h (lt_irrefl _); exact h]
      have := patch_height hp 0 t 1 (le_refl _) (by norm_num) t0 ht (le_refl _)
      rw [inner3_comm] at this
      have e : patchPoint SW SE NE NW 0 1 = NW := by
        unfold patchPoint
        rw [between_zero, between_zero, w _ _ hp.sw hp.nw]
      rw [e] at this
      exact this
  · intro hh
    rcases h1.lt_or_eq with hs | rfl
    · obtain ⟨q1, q2, q3, q4⟩ := patch_strip hp s 1 h0 hs (le_refl _)
      obtain ⟨e, f, hC⟩ := patch_col hp s h0 h1
      rw [w _ _ hp.sw hp.se, w _ _ hp.nw hp.ne] at q1
      rw [w _ _ hp.sw hp.se, w _ _ hp.nw hp.ne] at q3
      have r := triple_rot (Spec.between NW NE s) SE NE
      have r' := triple_rot SE NE (Spec.between NW NE s)
      have k : 0 < Spec.triple (patchPoint SW SE NE NW s t) SE NE := by
        unfold patchPoint
        rw [hC.eq, triple_comb1]
        exact comb_pos (hC.c0 t t0 t1) (hC.d0 t t0 t1) (hC.cd t t0 t1) q1 (by linarith)
      rw [inner3_comm]
      exact inner_lt_one_of_det _ SE NE x.1 hp.se.1 hp.ne.1 (ne_of_gt k)
    · have ht : 0 < t := by rcases hh with h | h <;> [exact absurd h (lt_irrefl _); exact h]
      have := patch_height hp 1 0 t (by norm_num) (le_refl _) (le_refl _) ht t1
      have e : patchPoint SW SE NE NW 1 0 = SE := by
        unfold patchPoint
        rw [between_zero, w _ _ hp.sw hp.se]
      rw [e] at this
      exact this

/-! ## C105 -/

/-- Corner `(x,y)` of a `mkgrid` grid of `m` by `n` cells (C96). -/
noncomputable def Spec.cornerOfBox (lon1 lat1 lon2 lat2 : ℝ) (m n x y : Nat) : V3 ℝ := Spec.boxPoint lon1 lat1 lon2 lat2 (x / m) (y / n)

theorem cornerOfBox_convex {lon1 lat1 lon2 lat2 : ℝ} (hb : Spec.NorthWestBox lon1 lat1 lon2 lat2) (m n : Nat) :
    Spec.ConvexMesh m n (Spec.cornerOfBox lon1 lat1 lon2 lat2 m n) := by
  obtain ⟨h, hp⟩ := box_patch hb
  have frac : ∀ (k N : Nat), k < N → ((k : ℝ) / N) < ((k + 1 : Nat) : ℝ) / N := by
    intro k N hN
    have : (0 : ℝ) < N := by
      have : 0 < N := by omega
      exact_mod_cast this
    apply div_lt_div_of_pos_right _ this
    push_cast; linarith
  intro x y hx hy
  exact patch_cell_convex hp _ _ _ _ (nat_div_unit hx.le).1 (frac x m hx) (nat_div_unit hx).2 (nat_div_unit hy.le).1 (frac y n hy) (nat_div_unit hy).2

theorem meanX_congr (R : ℝ) (M N : Nat) (G G' : Nat → Nat → V3 ℝ) (h : ∀ a b, a ≤ M → b ≤ N → G a b = G' a b) : Spec.meanX R G M N = Spec.meanX R G' M N := by
  unfold Spec.meanX
  refine congrArg (· / _) (Finset.sum_congr rfl fun a ha => Finset.sum_congr rfl fun b hb => ?_)
  rw [Finset.mem_range] at ha hb
  rw [h a b (by omega) (by omega), h (a + 1) b (by omega) (by omega)]

theorem meanY_congr (R : ℝ) (M N : Nat) (G G' : Nat → Nat → V3 ℝ) (h : ∀ a b, a ≤ M → b ≤ N → G a b = G' a b) : Spec.meanY R G M N = Spec.meanY R G' M N := by
  unfold Spec.meanY
  refine congrArg (· / _) (Finset.sum_congr rfl fun a ha => Finset.sum_congr rfl fun b hb => ?_)
  rw [Finset.mem_range] at ha hb
  rw [h a b (by omega) (by omega), h a (b + 1) (by omega) (by omega)]

theorem sum_blocks (f : Nat → ℝ) (q k : Nat) : ∑ j ∈ Finset.range (q * k), f j = ∑ y ∈ Finset.range q, ∑ j ∈ Finset.range k, f (y * k + j) := by
  induction q with
  | zero => simp
  | succ q ih => rw [Nat.succ_mul, Finset.sum_range_add, ih, Finset.sum_range_succ]

/-- In a grid with the corner points of a `mkgrid` grid the two corners of the box are nearest to themselves only. -/
theorem box_corners_nearest (R : ℝ) (hR : 0 < R) (geod : Geod ℝ) (hg : Spec.IsSphere R geod) (lon1 lat1 lon2 lat2 : ℝ) (m n : Nat) (hm : 1 ≤ m)
    (hn : 1 ≤ n) (hb : Spec.NorthWestBox lon1 lat1 lon2 lat2) (d : MatDict ℝ) (xr : d.xg.mat.rows = m + 1) (xc : d.xg.mat.cols = n + 1)
    (pos : ∀ i j, i ≤ m → j ≤ n → Spec.point (d.xg.mat.get i j, d.yg.mat.get i j) = Spec.cornerOfBox lon1 lat1 lon2 lat2 m n i j) :
    Spec.UniqueNearest geod lon1 lat1 (d.xg, d.yg) 0 n ∧ Spec.UniqueNearest geod lon2 lat2 (d.xg, d.yg) m 0 := by
  obtain ⟨h, hp⟩ := box_patch hb
  have w : ∀ p q : V3 ℝ, (Spec.OnSphere p ∧ 0 < Spec.inner3 h p) → (Spec.OnSphere q ∧ 0 < Spec.inner3 h q) → Spec.between p q 1 = q :=
    fun p q a b => between_one a.1 b.1 (hemi_lt_pi a.1 b.1 a.2 b.2)
  have m0 : (0 : ℝ) < m := by exact_mod_cast hm
  have n0 : (0 : ℝ) < n := by exact_mod_cast hn
  have dist : ∀ lon lat i j, i ≤ m → j ≤ n → Spec.dist geod lon lat d.xg.mat d.yg.mat i j =
      R * arccos (Spec.inner3 (Spec.point (lon, lat)) (patchPoint (Spec.point (lon1, lat2)) (Spec.point (lon2, lat2)) (Spec.point (lon2, lat1))
        (Spec.point (lon1, lat1)) (i / m) (j / n))) := by
    intro lon lat i j hi hj
    have p := pos i j hi hj
    unfold Spec.dist
    have q := hg.inv (lon, lat) (d.xg.mat.get i j, d.yg.mat.get i j)
    unfold Spec.angle at q
    rw [p] at q
    exact q
  have self : ∀ p : V3 ℝ, Spec.OnSphere p → R * arccos (Spec.inner3 p p) = 0 := by
    intro p hp
    have : Spec.inner3 p p = 1 := by
      unfold Spec.OnSphere Spec.inner3 at *
      linarith
    rw [this, arccos_one, mul_zero]
  have near : ∀ (lon lat : ℝ) (i j : Nat), i ≤ m → j ≤ n → patchPoint (Spec.point (lon1, lat2)) (Spec.point (lon2, lat2)) (Spec.point (lon2, lat1))
        (Spec.point (lon1, lat1)) (i / m) (j / n) = Spec.point (lon, lat) →
      (∀ i' j', i' ≤ m → j' ≤ n → (i', j') ≠ (i, j) → Spec.inner3 (Spec.point (lon, lat)) (patchPoint (Spec.point (lon1, lat2)) (Spec.point (lon2, lat2)) (Spec.point (lon2, lat1))
        (Spec.point (lon1, lat1)) (i' / m) (j' / n)) < 1) → Spec.UniqueNearest geod lon lat (d.xg, d.yg) i j := by
    intro lon lat i j hi hj e u
    have z : Spec.dist geod lon lat d.xg.mat d.yg.mat i j = 0 := by rw [dist lon lat i j hi hj, e, self _ (point_unit _)]
    refine ⟨by dsimp only; omega, by dsimp only; omega, ?_, fun i' j' hi' hj' ne => ?_⟩
    · dsimp only
      rw [z]
      rw [lt_r]
      show (0 : ℝ) < 10 ^ 10
      norm_num
    · dsimp only at hi' hj' ⊢
      rw [z, dist lon lat i' j' (by omega) (by omega)]
      have := arccos_pos.2 (u i' j' (by omega) (by omega) ne)
      rw [lt_r]
      positivity
  have one : ∀ N : Nat, 1 ≤ N → (N : ℝ) / N = 1 := fun N hN => div_self (by
    have : N ≠ 0 := by omega
    exact_mod_cast this)
  have lt1 : ∀ k N : Nat, k < N → (k : ℝ) / N < 1 := by
    intro k N hk
    have : (0 : ℝ) < N := by
      have : 0 < N := by omega
      exact_mod_cast this
    rw [div_lt_one this]
    exact_mod_cast hk
  have u1 : Spec.UniqueNearest geod lon1 lat1 (d.xg, d.yg) 0 n := by
    apply near _ _ _ _ (by omega) (le_refl _)
    · unfold patchPoint
      rw [one n hn, Nat.cast_zero, zero_div, between_zero, between_zero, w _ _ hp.sw hp.nw]
    · intro i' j' hi' hj' ne
      apply (patch_corners_apart hp (i' / m) (j' / n) (nat_div_unit hi').1 (nat_div_unit hi').2 (nat_div_unit hj').1 (nat_div_unit hj').2).1
      rcases Nat.eq_zero_or_pos i' with e | e
      · right
        refine lt1 _ _ ?_
        rcases Nat.lt_or_ge j' n with l | l
        · exact l
        · exact absurd (by rw [e, show j' = n by omega]) ne
      · left
        have : (0 : ℝ) < i' := by exact_mod_cast e
        positivity
  have u2 : Spec.UniqueNearest geod lon2 lat2 (d.xg, d.yg) m 0 := by
    apply near _ _ _ _ (le_refl _) (by omega)
    · unfold patchPoint
      rw [one m hm, Nat.cast_zero, zero_div, between_zero, w _ _ hp.sw hp.se]
    · intro i' j' hi' hj' ne
      apply (patch_corners_apart hp (i' / m) (j' / n) (nat_div_unit hi').1 (nat_div_unit hi').2 (nat_div_unit hj').1 (nat_div_unit hj').2).2
      rcases Nat.eq_zero_or_pos j' with e | e
      · left
        refine lt1 _ _ ?_
        rcases Nat.lt_or_ge i' m with l | l
        · exact l
        · exact absurd (by rw [e, show i' = m by omega]) ne
      · right
        have : (0 : ℝ) < j' := by exact_mod_cast e
        positivity
  exact ⟨u1, u2⟩

/-- **C105**, success and positions: if `mkgrid` makes a grid of a box on a sphere, `regrid` of that grid with the same corners and positive
subscales succeeds with `m·ls` by `n·lt` cells, corner `(i,j)` being where `Spec.meshPoint` says for the corners of the given grid. -/
theorem C105_refines [F64 ℝ] (R : ℝ) (hR : 0 < R) (geod : Geod ℝ) (hg : Spec.IsSphere R geod) (lon1 lat1 lon2 lat2 : ℝ) (m n : Nat) (hm : 1 ≤ m)
    (hn : 1 ≤ n) (hb : Spec.NorthWestBox lon1 lat1 lon2 lat2) (g : Grid ℝ) (X Y : Mat ℝ)
    (hmk : mkgrid geod lon1 lat1 lon2 lat2 (m : Int) (n : Int) = .ok (g, (m : Int), (n : Int))) (hX : g .XG = .arr X) (hY : g .YG = .arr Y)
    (fs : Files ℝ) (a : RegridArgs ℝ) (d : MatDict ℝ) (hsrc : readSource fs a = .ok d) (hw : d.xg.WF) (dX : d.xg.mat = X) (dY : d.yg.mat = Y)
    (a1 : a.lon1 = lon1) (a2 : a.lat1 = lat1) (a3 : a.lon2 = lon2) (a4 : a.lat2 = lat2) (ls lt : Nat) (hls : a.lonSub = ls) (hlt : a.latSub = lt)
    (ls0 : 1 ≤ ls) (lt0 : 1 ≤ lt) (fuel : Nat) (hf : 4 ≤ fuel) :
    ∃ dict' g' XG YG, regrid geod fs fuel a = some (dict', .ok (g', ((m * ls : Nat) : Int), ((n * lt : Nat) : Int))) ∧
      g' .XG = .arr XG ∧ g' .YG = .arr YG ∧ Spec.Complete g' (m * ls) (n * lt) ∧
      (∀ x y, x ≤ m → y ≤ n → Spec.givenPoint XG YG ls lt x y = Spec.cornerOfBox lon1 lat1 lon2 lat2 m n x y) ∧
      ∀ i j, i ≤ m * ls → j ≤ n * lt →
        Spec.point (XG.get i j, YG.get i j) = Spec.meshPoint (Spec.cornerOfBox lon1 lat1 lon2 lat2 m n) ls lt (2 * i) (2 * j) := by
  obtain ⟨g0, X0, Y0, XC0, YC0, h0, hX0, hY0, -, -, pos, -⟩ := C96_positions R geod hg lon1 lat1 lon2 lat2 m n hm hn (box_of_northWest hb)
  rw [hmk] at h0; cases h0
  rw [hX] at hX0; cases hX0
  rw [hY] at hY0; cases hY0
  obtain ⟨g1, h1, comp⟩ := C27_mkgrid_sizes geod lon1 lat1 lon2 lat2 m n hm hn
  rw [hmk] at h1; cases h1
  obtain ⟨X1, e1, xr, xc⟩ := comp .XG
  obtain ⟨Y1, e2, yr, yc⟩ := comp .YG
  rw [hX] at e1; cases e1
  rw [hY] at e2; cases e2
  simp only [Spec.nrows, Spec.ncols] at xr xc yr yc
  subst a1 a2 a3 a4
  obtain ⟨u1, u2⟩ := box_corners_nearest R hR geod hg _ _ _ _ m n hm hn hb d (by rw [dX]; omega) (by rw [dX]; omega)
    (fun i j hi hj => by rw [dX, dY]; exact (pos i j hi hj).1)
  obtain ⟨dict', g', XG, YG, hr, hXG, hYG, cmp, same⟩ := regrid_whole geod fs a d hsrc hw
    ⟨by rw [dX, dY]; omega, by rw [dX, dY]; omega, by rw [dX]; omega, by rw [dX]; omega⟩ m n ls lt (by rw [dX]; omega) (by rw [dX]; omega) hm hn hls hlt ls0 lt0
    u1 u2 fuel hf
  have given : ∀ x y, x ≤ m → y ≤ n → Spec.givenPoint XG YG ls lt x y = Spec.cornerOfBox a.lon1 a.lat1 a.lon2 a.lat2 m n x y := by
    intro x y hx hy
    unfold Spec.givenPoint Spec.cornerOfBox
    rw [(same x y hx hy).1, (same x y hx hy).2, dX, dY]
    exact (pos x y hx hy).1
  obtain ⟨XC, hXC, -, -⟩ := cmp .XC
  obtain ⟨YC, hYC, -, -⟩ := cmp .YC
  refine ⟨dict', g', XG, YG, hr, hXG, hYG, cmp, given, fun i j hi hj => ?_⟩
  have small : Spec.SmallCells m n (Spec.givenPoint XG YG ls lt) := by
    intro x y hx hy
    rw [given x y (by omega) (by omega), given (x + 1) y (by omega) (by omega), given (x + 1) (y + 1) (by omega) (by omega), given x (y + 1) (by omega) (by omega)]
    exact convex_small (cornerOfBox_convex hb m n) x y hx hy
  rw [(C103_regrid_positions R geod hg fs fuel a d hsrc hw dict' g' _ _ hr XG YG XC YC hXG hYG hXC hYC m n ls lt hls hlt rfl rfl small).1 i j hi hj]
  exact meshPoint_congr m n ls lt ls0 lt0 _ _ given _ _ (by rw [Nat.mul_left_comm]; omega) (by rw [Nat.mul_left_comm]; omega)

/-- **C105**, areas: if moreover both grids have cells large enough for the spherical formula, every column of cells of the given grid has the same total
area RAC before and after refinement (hence so has the grid). -/
theorem C105_column_areas [F64 ℝ] (R : ℝ) (hR : 0 < R) (geod : Geod ℝ) (hg : Spec.IsSphere R geod) (lon1 lat1 lon2 lat2 : ℝ) (m n : Nat) (hm : 1 ≤ m)
    (hn : 1 ≤ n) (hb : Spec.NorthWestBox lon1 lat1 lon2 lat2) (g : Grid ℝ) (X Y : Mat ℝ)
    (hmk : mkgrid geod lon1 lat1 lon2 lat2 (m : Int) (n : Int) = .ok (g, (m : Int), (n : Int))) (hX : g .XG = .arr X) (hY : g .YG = .arr Y)
    (fs : Files ℝ) (a : RegridArgs ℝ) (d : MatDict ℝ) (hsrc : readSource fs a = .ok d) (hw : d.xg.WF) (dX : d.xg.mat = X) (dY : d.yg.mat = Y)
    (a1 : a.lon1 = lon1) (a2 : a.lat1 = lat1) (a3 : a.lon2 = lon2) (a4 : a.lat2 = lat2) (ls lt : Nat) (hls : a.lonSub = ls) (hlt : a.latSub = lt)
    (ls0 : 1 ≤ ls) (lt0 : 1 ≤ lt) (fuel : Nat) (hf : 4 ≤ fuel)
    (large : 10000 ≤ Spec.meanHalfWidth R lon1 lat1 lon2 lat2 m n ∨ 10000 ≤ Spec.meanHalfHeight R lon1 lat1 lon2 lat2 m n)
    (large' : 10000 ≤ Spec.meanX R (Spec.meshPoint (Spec.cornerOfBox lon1 lat1 lon2 lat2 m n) ls lt) (2 * (m * ls)) (2 * (n * lt)) ∨
      10000 ≤ Spec.meanY R (Spec.meshPoint (Spec.cornerOfBox lon1 lat1 lon2 lat2 m n) ls lt) (2 * (m * ls)) (2 * (n * lt))) :
    ∃ dict' g' A A', regrid geod fs fuel a = some (dict', .ok (g', ((m * ls : Nat) : Int), ((n * lt : Nat) : Int))) ∧
      g .RAC = .arr A ∧ g' .RAC = .arr A' ∧ (∀ i j, i < m * ls → j < n * lt → 0 < A'.get i j) ∧
      ∀ x, x < m → ∑ i ∈ Finset.range ls, ∑ j ∈ Finset.range (n * lt), A'.get (x * ls + i) j = ∑ y ∈ Finset.range n, A.get x y := by
  obtain ⟨dict', g', XG, YG, hr, hXG, hYG, cmp, given, -⟩ := C105_refines R hR geod hg lon1 lat1 lon2 lat2 m n hm hn hb g X Y hmk hX hY fs a d hsrc hw dX dY
    a1 a2 a3 a4 ls lt hls hlt ls0 lt0 fuel hf
  obtain ⟨g0, A, h0, hA, -, strips⟩ := C102_strips R hR geod hg lon1 lat1 lon2 lat2 m n hm hn hb large
  rw [hmk] at h0; cases h0
  obtain ⟨A', hA', -, -⟩ := cmp .RAC
  have conv : Spec.ConvexMesh m n (Spec.givenPoint XG YG ls lt) := by
    intro x y hx hy
    rw [given x y (by omega) (by omega), given (x + 1) y (by omega) (by omega), given (x + 1) (y + 1) (by omega) (by omega), given x (y + 1) (by omega) (by omega)]
    exact cornerOfBox_convex hb m n x y hx hy
  have cong : ∀ a b, a ≤ 2 * (m * ls) → b ≤ 2 * (n * lt) →
      Spec.meshPoint (Spec.givenPoint XG YG ls lt) ls lt a b = Spec.meshPoint (Spec.cornerOfBox lon1 lat1 lon2 lat2 m n) ls lt a b := fun a b ha hb =>
    meshPoint_congr m n ls lt ls0 lt0 _ _ given _ _ (by rw [Nat.mul_left_comm]; omega) (by rw [Nat.mul_left_comm]; omega)
  have ex := meanX_congr R (2 * (m * ls)) (2 * (n * lt)) _ _ cong
  have ey := meanY_congr R (2 * (m * ls)) (2 * (n * lt)) _ _ cong
  rw [← ex, ← ey] at large'
  obtain ⟨pos, areas⟩ := C104_regrid_areas R hR geod hg fs fuel a d hsrc hw dict' g' _ _ hr XG YG A' hXG hYG hA' m n ls lt hls hlt rfl rfl conv large'
  refine ⟨dict', g', A, A', hr, hA, hA', pos, fun x hx => ?_⟩
  obtain ⟨h, hp⟩ := box_patch hb
  have frac : ∀ (k N : Nat), 0 < N → ((k : ℝ) / N) < ((k + 1 : Nat) : ℝ) / N := by
    intro k N hN
    have : (0 : ℝ) < N := by exact_mod_cast hN
    apply div_lt_div_of_pos_right _ this
    push_cast; linarith
  have cells : ∀ y, y < n → ∑ i ∈ Finset.range ls, ∑ j ∈ Finset.range lt, A'.get (x * ls + i) (y * lt + j) =
      R ^ 2 * squadCell (Spec.cornerOfBox lon1 lat1 lon2 lat2 m n x y) (Spec.cornerOfBox lon1 lat1 lon2 lat2 m n (x + 1) y)
        (Spec.cornerOfBox lon1 lat1 lon2 lat2 m n (x + 1) (y + 1)) (Spec.cornerOfBox lon1 lat1 lon2 lat2 m n x (y + 1)) := by
    intro y hy
    rw [areas x y hx hy, given x y (by omega) (by omega), given (x + 1) y (by omega) (by omega), given (x + 1) (y + 1) (by omega) (by omega),
      given x (y + 1) (by omega) (by omega)]
    obtain ⟨k, hpt⟩ := patch_of_convex (cornerOfBox_convex hb m n x y hx hy)
    rw [C15_sum_of_excesses _ _ _ _ hpt.sw.1 hpt.se.1 hpt.ne.1 hpt.nw.1 (nonDeg_of_triple hpt.sw.1 hpt.se.1 hpt.ne.1 hpt.sw.2 hpt.se.2 hpt.ne.2 hpt.t1)
      (nonDeg_of_triple hpt.sw.1 hpt.ne.1 hpt.nw.1 hpt.sw.2 hpt.ne.2 hpt.nw.2 hpt.t3)]
    rfl
  have s := strips x (x + 1) (by omega) hx
  rw [Finset.sum_Ico_eq_sum_range, show x + 1 - x = 1 by omega, Finset.sum_range_one, Nat.add_zero] at s
  rw [s]
  have l : ∑ i ∈ Finset.range ls, ∑ j ∈ Finset.range (n * lt), A'.get (x * ls + i) j =
      R ^ 2 * ∑ y ∈ Finset.range n, squadCell (Spec.cornerOfBox lon1 lat1 lon2 lat2 m n x y) (Spec.cornerOfBox lon1 lat1 lon2 lat2 m n (x + 1) y)
        (Spec.cornerOfBox lon1 lat1 lon2 lat2 m n (x + 1) (y + 1)) (Spec.cornerOfBox lon1 lat1 lon2 lat2 m n x (y + 1)) := by
    rw [Finset.mul_sum, Finset.sum_congr rfl fun i _ => sum_blocks _ n lt, Finset.sum_comm]
    refine Finset.sum_congr rfl fun y hy => ?_
    rw [Finset.mem_range] at hy
    exact cells y hy
  rw [l]
  congr 1
  have n0 : (n : ℝ) ≠ 0 := by
    have : n ≠ 0 := by omega
    exact_mod_cast this
  have t := (patch_total hp 1 n (by omega) (by omega) (fun k => ((x + k : Nat) : ℝ) / m) (fun k => ((k : Nat) : ℝ) / n) (by positivity)
    (fun k _ => frac (x + k) m (by omega)) (nat_div_unit (by omega)).2 (by simp) (fun k _ => frac k n (by omega)) (div_self n0)).2
  rw [Finset.sum_range_one] at t
  have s0 : 0 ≤ (x : ℝ) / m ∧ (x : ℝ) / m ≤ 1 := nat_div_unit (by omega)
  have s1 : 0 ≤ ((x + 1 : Nat) : ℝ) / m ∧ ((x + 1 : Nat) : ℝ) / m ≤ 1 := nat_div_unit (by omega)
  have S0 := patch_S hp _ s0.1 s0.2
  have S1 := patch_S hp _ s1.1 s1.2
  have N0 := patch_N hp _ s0.1 s0.2
  have N1 := patch_N hp _ s1.1 s1.2
  have q0 : ∀ x, Spec.boxPoint lon1 lat1 lon2 lat2 x 0 = Spec.between (Spec.point (lon1, lat2)) (Spec.point (lon2, lat2)) x := fun x => between_zero
  have q1 : Spec.boxPoint lon1 lat1 lon2 lat2 (x / m) 1 = Spec.between (Spec.point (lon1, lat1)) (Spec.point (lon2, lat1)) (x / m) :=
    between_one S0.1 N0.1 (hemi_lt_pi S0.1 N0.1 S0.2 N0.2)
  have q2 : Spec.boxPoint lon1 lat1 lon2 lat2 ((x + 1 : Nat) / m) 1 = Spec.between (Spec.point (lon1, lat1)) (Spec.point (lon2, lat1)) ((x + 1 : Nat) / m) :=
    between_one S1.1 N1.1 (hemi_lt_pi S1.1 N1.1 S1.2 N1.2)
  rw [q0, q0, q1, q2]
  obtain ⟨t1, -, -, t4⟩ := patch_strip hp _ _ s0.1 (frac x m (by omega)) s1.2
  have fin := C15_sum_of_excesses _ _ _ _ S0.1 S1.1 N1.1 N0.1 (nonDeg_of_triple S0.1 S1.1 N1.1 S0.2 S1.2 N1.2 t1)
    (nonDeg_of_triple S0.1 N1.1 N0.1 S0.2 N1.2 N0.2 t4)
  unfold Spec.quadArea
  rw [← fin]
  exact t

/-- If the western side alone is long enough, the spherical formula is used for the refined grid. -/
theorem C105_large (R : ℝ) (hR : 0 < R) (lon1 lat1 lon2 lat2 : ℝ) (m n ls lt : Nat) (hm : 1 ≤ m) (hn : 1 ≤ n) (ls0 : 1 ≤ ls) (lt0 : 1 ≤ lt)
    (hb : Spec.NorthWestBox lon1 lat1 lon2 lat2) (hl : 10000 * ((2 * (m * ls) + 1) * (2 * (n * lt))) ≤ R * Spec.rad (lat1 - lat2)) :
    10000 ≤ Spec.meanY R (Spec.meshPoint (Spec.cornerOfBox lon1 lat1 lon2 lat2 m n) ls lt) (2 * (m * ls)) (2 * (n * lt)) := by
  have small := convex_small (cornerOfBox_convex hb m n)
  obtain ⟨n1, n2, up, -⟩ := hb
  obtain ⟨a1, a2⟩ := abs_lt.1 n1
  obtain ⟨b1, b2⟩ := abs_lt.1 n2
  have hpi := Real.pi_pos
  have hn' : (1 : ℝ) ≤ n := by exact_mod_cast hn
  have hlt' : (1 : ℝ) ≤ (2 * lt : Nat) := by
    have : 1 ≤ 2 * lt := by omega
    exact_mod_cast this
  have d0 : 0 < Spec.rad (lat1 - lat2) := by unfold Spec.rad; nlinarith
  have d1 : Spec.rad (lat1 - lat2) < π := by unfold Spec.rad; nlinarith
  have ang : arccos (Spec.inner3 (Spec.point (lon1, lat2)) (Spec.point (lon1, lat1))) = Spec.rad (lat1 - lat2) := by
    have : Spec.inner3 (Spec.point (lon1, lat2)) (Spec.point (lon1, lat1)) = cos (Spec.rad (lat1 - lat2)) := by
      have e : Spec.rad (lat1 - lat2) = Spec.rad lat1 - Spec.rad lat2 := by unfold Spec.rad; ring
      rw [e, cos_sub]
      unfold Spec.inner3 Spec.point
      dsimp only
      linear_combination (cos (Spec.rad lat1) * cos (Spec.rad lat2)) * sin_sq_add_cos_sq (Spec.rad lon1)
    rw [this, arccos_cos d0.le d1.le]
  have q0 : 0 < Spec.rad (lat1 - lat2) / n := by positivity
  have q1 : Spec.rad (lat1 - lat2) / n < π := by
    rw [div_lt_iff₀ (by linarith)]
    nlinarith
  -- the western side of a cell
  have side : ∀ y : Nat, arccos (Spec.inner3 (Spec.cornerOfBox lon1 lat1 lon2 lat2 m n 0 y) (Spec.cornerOfBox lon1 lat1 lon2 lat2 m n 0 (y + 1))) =
      Spec.rad (lat1 - lat2) / n := by
    intro y
    have z : ((0 : Nat) : ℝ) / m = 0 := by simp
    unfold Spec.cornerOfBox
    rw [z]
    unfold Spec.boxPoint
    rw [between_zero, between_zero, between_inner (point_unit _) (point_unit _) (by rw [ang]; exact ne_of_gt (sin_pos_of_pos_of_lt_pi d0 d1)), ang]
    have e : (((y + 1 : Nat) : ℝ) / n - (y : ℝ) / n) * Spec.rad (lat1 - lat2) = Spec.rad (lat1 - lat2) / n := by
      push_cast; field_simp; ring
    rw [e, arccos_cos q0.le q1.le]
  have west : ∀ b : Nat, b < 2 * (n * lt) → R * arccos (Spec.inner3 (Spec.meshPoint (Spec.cornerOfBox lon1 lat1 lon2 lat2 m n) ls lt 0 b)
      (Spec.meshPoint (Spec.cornerOfBox lon1 lat1 lon2 lat2 m n) ls lt 0 (b + 1))) = R * Spec.rad (lat1 - lat2) / (2 * (n * lt) : Nat) := by
    intro b hbn
    have hy : b / (2 * lt) < n := Nat.div_lt_of_lt_mul (by rw [Nat.mul_comm, Nat.mul_left_comm]; exact hbn)
    have hj := Nat.mod_lt b (show 0 < 2 * lt by omega)
    have eb : b = b / (2 * lt) * (2 * lt) + b % (2 * lt) := by rw [Nat.mul_comm, Nat.div_add_mod]
    generalize b / (2 * lt) = y at *
    generalize b % (2 * lt) = j at *
    subst eb
    have z : (0 : Nat) = 0 * (2 * ls) + 0 := by omega
    rw [Nat.add_assoc]
    have p1 := meshPoint_cell m n ls lt ls0 lt0 _ small 0 y 0 j hm hy (by omega) (by omega)
    have p2 := meshPoint_cell m n ls lt ls0 lt0 _ small 0 y 0 (j + 1) hm hy (by omega) (by omega)
    rw [← z] at p1 p2
    have u1 : Spec.OnSphere (Spec.cornerOfBox lon1 lat1 lon2 lat2 m n 0 y) := between_unit (between_unit (point_unit _) (point_unit _) _) (between_unit (point_unit _) (point_unit _) _) _
    have u2 : Spec.OnSphere (Spec.cornerOfBox lon1 lat1 lon2 lat2 m n 0 (y + 1)) := between_unit (between_unit (point_unit _) (point_unit _) _) (between_unit (point_unit _) (point_unit _) _) _
    rw [p1, p2]
    unfold patchPoint
    have zz : ((0 : Nat) : ℝ) / (2 * ls : Nat) = 0 := by simp
    rw [zz, between_zero, between_zero, between_inner u1 u2 (by rw [side y]; exact ne_of_gt (sin_pos_of_pos_of_lt_pi q0 q1)), side y]
    have e : (((j + 1 : Nat) : ℝ) / (2 * lt : Nat) - (j : ℝ) / (2 * lt : Nat)) * (Spec.rad (lat1 - lat2) / n) = Spec.rad (lat1 - lat2) / n / (2 * lt : Nat) := by
      push_cast; field_simp; ring
    rw [e, arccos_cos (by positivity)]
    · push_cast; field_simp
    · rw [div_le_iff₀ (by linarith)]
      nlinarith
  unfold Spec.meanY
  have hd : (0 : ℝ) < ((2 * (m * ls) + 1) * (2 * (n * lt)) : Nat) := by
    have : 0 < (2 * (m * ls) + 1) * (2 * (n * lt)) := by positivity
    exact_mod_cast this
  rw [le_div_iff₀ hd, Finset.sum_range_succ']
  have rest : 0 ≤ ∑ a ∈ Finset.range (2 * (m * ls)), ∑ b ∈ Finset.range (2 * (n * lt)),
      R * arccos (Spec.inner3 (Spec.meshPoint (Spec.cornerOfBox lon1 lat1 lon2 lat2 m n) ls lt (a + 1) b)
      (Spec.meshPoint (Spec.cornerOfBox lon1 lat1 lon2 lat2 m n) ls lt (a + 1) (b + 1))) :=
    Finset.sum_nonneg fun a _ => Finset.sum_nonneg fun b _ => mul_nonneg hR.le (arccos_nonneg _)
  have first : ∑ b ∈ Finset.range (2 * (n * lt)), R * arccos (Spec.inner3 (Spec.meshPoint (Spec.cornerOfBox lon1 lat1 lon2 lat2 m n) ls lt 0 b)
      (Spec.meshPoint (Spec.cornerOfBox lon1 lat1 lon2 lat2 m n) ls lt 0 (b + 1))) = R * Spec.rad (lat1 - lat2) := by
    rw [Finset.sum_congr rfl fun b hb => west b (Finset.mem_range.1 hb), Finset.sum_const, Finset.card_range, nsmul_eq_mul]
    have : ((2 * (n * lt) : Nat) : ℝ) ≠ 0 := by
      have : 2 * (n * lt) ≠ 0 := by positivity
      exact_mod_cast this
    field_simp
  rw [first]
  have hl' : 10000 * (((2 * (m * ls) + 1) * (2 * (n * lt)) : Nat) : ℝ) ≤ R * Spec.rad (lat1 - lat2) := by push_cast; exact hl
  linarith

/-- Bytes of real numbers play no role when the source is a dictionary. -/
noncomputable local instance : F64 ℝ := ⟨fun _ => 0, fun _ => 0⟩

/-- The north Atlantic box of C82 as 4 by 2 cells, refined 2 by 3: 8 by 6 cells; the hypotheses of C103, C104 and C105 hold, and the cells of every
column of the first grid have the same total area in the second. -/
example : ∃ (geod : Geod ℝ) (a : RegridArgs ℝ) (d' : Option (MatDict ℝ)) (g g' : Grid ℝ) (A A' : Mat ℝ), Spec.IsSphere 6370997 geod ∧
    mkgrid geod (-60) 50 (-20) 30 (4 : Nat) (2 : Nat) = .ok (g, (4 : Nat), (2 : Nat)) ∧
    regrid geod ⟨fun _ => none, fun _ => .error .ioError⟩ 4 a = some (d', .ok (g', ((4 * 2 : Nat) : Int), ((2 * 3 : Nat) : Int))) ∧
    g .RAC = .arr A ∧ g' .RAC = .arr A' ∧
    ∀ x, x < 4 → ∑ i ∈ Finset.range 2, ∑ j ∈ Finset.range (2 * 3), A'.get (x * 2 + i) j = ∑ y ∈ Finset.range 2, A.get x y := by
  obtain ⟨geod, hg⟩ := C80_sphere_exists 6370997
  have hb : Spec.NorthWestBox (-60) 50 (-20) 30 := by
    refine ⟨?_, ?_, by norm_num, 0, by norm_num, by norm_num⟩ <;> rw [abs_lt] <;> norm_num
  have hpi := Real.pi_gt_three
  obtain ⟨g, X, Y, XC, YC, hmk, hX, hY, hXC, -, -⟩ := C96_positions 6370997 geod hg (-60) 50 (-20) 30 4 2 (by norm_num) (by norm_num) (box_of_northWest hb)
  let a : RegridArgs ℝ := Spec.onDict ⟨false, none, none, none, none, none, none, -60, 50, -20, 30, 2, 3⟩ ⟨.ofC X, .ofC Y, g⟩
  obtain ⟨d', g', A, A', hr, hA, hA', -, t⟩ := C105_column_areas 6370997 (by norm_num) geod hg (-60) 50 (-20) 30 4 2 (by norm_num) (by norm_num) hb g X Y hmk hX hY
    ⟨fun _ => none, fun _ => .error .ioError⟩ a ⟨.ofC X, .ofC Y, g⟩ (readSource_onDict _ _ _ XC hXC) (NArr.ofC_wf _) rfl rfl rfl rfl rfl rfl 2 3 rfl rfl
    (by norm_num) (by norm_num) 4 (le_refl _)
    (.inr (C102_large _ (by norm_num) _ _ _ _ 4 2 (by norm_num) hb (by unfold Spec.rad; norm_num; linarith)))
    (.inr (C105_large _ (by norm_num) _ _ _ _ 4 2 2 3 (by norm_num) (by norm_num) (by norm_num) (by norm_num) hb (by unfold Spec.rad; norm_num; linarith)))
  exact ⟨geod, a, d', g, g', A, A', hg, hmk, hr, hA, hA', t⟩

end SG
