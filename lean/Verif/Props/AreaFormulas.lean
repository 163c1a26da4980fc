import Verif.Props.SphereTotal

/-! # C113, C114: the two area formulas agree for small cells

`config.py` calls the switch from `squad_uarea` to `pquad_uarea` at a corner distance of `PLANAR_SPHER_TRANSITION` a choice between an exact and a cheaper
value. Here: how far the two values can be apart, for any quadrilateral with corners on the unit sphere. -/

set_option linter.unusedSectionVars false

namespace SG
open Real

namespace Spec
/-- Radius of the circle through three points of space: product of the sides over four times the area. -/
noncomputable def circumradius (p q r : V3 ℝ) : ℝ := Real.sqrt (dist2 p q * dist2 q r * dist2 r p) / (4 * triArea p q r)

/-- A triangle with sides of length at most `d` (straight through space) whose corners are on a circle of radius at most `r`. -/
structure SmallTri (d r : ℝ) (a b c : V3 ℝ) : Prop where
  ab : dist2 a b ≤ d ^ 2
  bc : dist2 b c ≤ d ^ 2
  ca : dist2 c a ≤ d ^ 2
  circle : circumradius a b c ≤ r
end Spec

/-! ## One triangle -/

theorem dist2_unit {p q : V3 ℝ} (hp : Spec.OnSphere p) (hq : Spec.OnSphere q) : Spec.dist2 p q = 2 - 2 * Spec.inner3 p q := by
  unfold Spec.OnSphere Spec.inner3 at *
  unfold Spec.dist2
  nlinarith

theorem inner3_self_nonneg (p : V3 ℝ) : 0 ≤ Spec.inner3 p p := by
  unfold Spec.inner3
  nlinarith [mul_self_nonneg p.x, mul_self_nonneg p.y, mul_self_nonneg p.z]

theorem nonDeg_of_leftTurn {a b c : V3 ℝ} (ha : Spec.OnSphere a) (hb : Spec.OnSphere b) (hc : Spec.OnSphere c) (h : Spec.LeftTurn a b c) :
    Spec.NonDeg a b c := by
  have g := gram a b c ha hb hc
  have p : 0 < Spec.triple a b c ^ 2 := by unfold Spec.LeftTurn at h; positivity
  rw [inner3_comm c a] at g
  refine ⟨fun e => ?_, fun e => ?_, fun e => ?_⟩
  · nlinarith [sq_nonneg (Spec.inner3 b c - Spec.inner3 a b * Spec.inner3 a c)]
  · nlinarith [sq_nonneg (Spec.inner3 a b - Spec.inner3 b c * Spec.inner3 a c)]
  · nlinarith [sq_nonneg (Spec.inner3 b c - Spec.inner3 a b * Spec.inner3 a c)]

/-- Twice the area of the flat triangle, squared, is the square of the triple product and a term of sixth order. -/
theorem flat_sq {a b c : V3 ℝ} (ha : Spec.OnSphere a) (hb : Spec.OnSphere b) (hc : Spec.OnSphere c) :
    (2 * Spec.triArea a b c) ^ 2 = Spec.triple a b c ^ 2 + Spec.dist2 a b * Spec.dist2 b c * Spec.dist2 c a / 4 := by
  have e : (2 * Spec.triArea a b c) ^ 2 = Spec.inner3 (b.sub a) (b.sub a) * Spec.inner3 (c.sub a) (c.sub a) - Spec.inner3 (b.sub a) (c.sub a) ^ 2 := by
    unfold Spec.triArea
    rw [mul_div_cancel₀ _ (two_ne_zero), Real.sq_sqrt]
    rw [← lagrange]
    exact inner3_self_nonneg _
  have s : ∀ p q r : V3 ℝ, Spec.inner3 (q.sub p) (r.sub p) = Spec.inner3 q r - Spec.inner3 p q - Spec.inner3 p r + Spec.inner3 p p := by
    intro p q r
    simp only [Spec.inner3, V3.sub, sub_r]; ring
  rw [e, s, s, s, gram a b c ha hb hc, dist2_unit ha hb, dist2_unit hb hc, dist2_unit hc ha, inner3_comm c a, ha, hb, hc]
  ring

/-- The excess of a spherical triangle between multiples of half the triple product. -/
theorem excess_bounds {a b c : V3 ℝ} {d r : ℝ} (ha : Spec.OnSphere a) (hb : Spec.OnSphere b) (hc : Spec.OnSphere c) (h : Spec.LeftTurn a b c)
    (hs : Spec.SmallTri d r a b c) (hd : d ^ 2 < 8 / 3) :
    Spec.triple a b c / 2 ≤ Spec.excess a b c ∧ (1 - 3 / 8 * d ^ 2) * Spec.excess a b c ≤ Spec.triple a b c / 2 := by
  obtain ⟨e, p0, -⟩ := excess_arg a b c ha hb hc h
  have h0 : 0 < Spec.triple a b c := h
  have x : (tri a b c).re = 4 - (Spec.dist2 a b + Spec.dist2 b c + Spec.dist2 c a) / 2 := by
    rw [dist2_unit ha hb, dist2_unit hb hc, dist2_unit hc ha]
    show 1 + _ + _ + _ = _
    ring
  have xl : 4 * (1 - 3 / 8 * d ^ 2) ≤ (tri a b c).re := by rw [x]; linarith [hs.ab, hs.bc, hs.ca]
  have xp : 0 < (tri a b c).re := by linarith
  have p1 : Complex.arg (tri a b c) < π / 2 := (abs_lt.1 (Complex.abs_arg_lt_pi_div_two_iff.2 (.inl xp))).2
  have t := Real.lt_tan p0 p1
  rw [Complex.tan_arg] at t
  have s := Real.sin_lt p0
  rw [Complex.sin_arg] at s
  have i : (tri a b c).im = Spec.triple a b c := rfl
  rw [i] at t s
  have n : ‖tri a b c‖ ^ 2 ≤ 4 ^ 2 := by
    rw [← Complex.normSq_eq_norm_sq, Complex.normSq_apply, i, ← sq, ← sq, gram a b c ha hb hc]
    show (1 + Spec.inner3 a b + Spec.inner3 b c + Spec.inner3 c a) ^ 2 + _ ≤ _
    have e : (1 + Spec.inner3 a b + Spec.inner3 b c + Spec.inner3 c a) ^ 2 +
        (1 + 2 * Spec.inner3 a b * Spec.inner3 b c * Spec.inner3 c a - Spec.inner3 a b ^ 2 - Spec.inner3 b c ^ 2 - Spec.inner3 c a ^ 2) =
        2 * ((1 + Spec.inner3 a b) * (1 + Spec.inner3 b c) * (1 + Spec.inner3 c a)) := by ring
    rw [e]
    have h1 := inner_le_one ha hb
    have h2 := inner_le_one hb hc
    have h3 := inner_le_one hc ha
    have m1 : (1 + Spec.inner3 a b) * (1 + Spec.inner3 b c) ≤ 2 * 2 :=
      mul_le_mul (by linarith) (by linarith) (by linarith) (by norm_num)
    have m2 : (1 + Spec.inner3 a b) * (1 + Spec.inner3 b c) * (1 + Spec.inner3 c a) ≤ 2 * 2 * 2 :=
      mul_le_mul m1 (by linarith) (by linarith) (by norm_num)
    linarith
  have n4 : ‖tri a b c‖ ≤ 4 := le_of_sq_le_sq n (by norm_num)
  have np : 0 < ‖tri a b c‖ := by
    rw [norm_pos_iff]
    intro z
    rw [z] at xp
    exact lt_irrefl _ xp
  rw [e]
  constructor
  · have : Spec.triple a b c / 4 ≤ Spec.triple a b c / ‖tri a b c‖ := div_le_div_of_nonneg_left h0.le np n4
    linarith
  · rw [lt_div_iff₀ xp] at t
    have : Complex.arg (tri a b c) * (4 * (1 - 3 / 8 * d ^ 2)) ≤ Complex.arg (tri a b c) * (tri a b c).re := mul_le_mul_of_nonneg_left xl p0.le
    linarith

/-- The flat triangle is at most this much larger than half the triple product. -/
theorem flat_bound {a b c : V3 ℝ} {d r : ℝ} (ha : Spec.OnSphere a) (hb : Spec.OnSphere b) (hc : Spec.OnSphere c) (h : Spec.LeftTurn a b c)
    (hs : Spec.SmallTri d r a b c) : Real.sqrt (1 - r ^ 2) * Spec.triArea a b c ≤ Spec.triple a b c / 2 := by
  have h0 : 0 < Spec.triple a b c := h
  have f := flat_sq ha hb hc
  have tp : 0 ≤ Spec.triArea a b c := by unfold Spec.triArea; positivity
  have sp : 0 ≤ Spec.dist2 a b * Spec.dist2 b c * Spec.dist2 c a := by unfold Spec.dist2; positivity
  have t0 : 0 < Spec.triArea a b c := by
    rcases tp.lt_or_eq with t | t
    · exact t
    · rw [← t] at f
      have : 0 < Spec.triple a b c ^ 2 := by positivity
      linarith
  have hr := hs.circle
  have cr : 0 ≤ Spec.circumradius a b c := by unfold Spec.circumradius; positivity
  have rr : Spec.circumradius a b c ^ 2 ≤ r ^ 2 := pow_le_pow_left₀ cr hr 2
  unfold Spec.circumradius at rr
  rw [div_pow, Real.sq_sqrt sp, div_le_iff₀ (by positivity)] at rr
  by_cases k : 0 ≤ 1 - r ^ 2
  · apply le_of_sq_le_sq _ (by positivity)
    rw [mul_pow, Real.sq_sqrt k]
    nlinarith
  · rw [Real.sqrt_eq_zero_of_nonpos (by linarith)]
    linarith

/-! ## One cell -/

theorem pquad_bounds {A B C D : V3 ℝ} (hA : Spec.OnSphere A) :
    (Spec.triple A B C + Spec.triple A C D) / 2 ≤ pquadCell A B C D ∧ pquadCell A B C D ≤ Spec.triArea A B C + Spec.triArea A C D := by
  have e1 : Spec.triArea A B C = ((B.sub A).cross (C.sub A)).norm / 2 := by rw [norm_r, lagrange]; rfl
  have e2 : Spec.triArea A C D = ((C.sub A).cross (D.sub A)).norm / 2 := by rw [norm_r, lagrange]; rfl
  have e0 : pquadCell A B C D = (((B.sub A).cross (C.sub A)).add ((C.sub A).cross (D.sub A))).norm / 2 := by
    unfold pquadCell
    simp only [mul_r]
    show (1 / 2 : ℝ) * _ = _
    ring
  have ed : Spec.triple A B C + Spec.triple A C D = Spec.inner3 (((B.sub A).cross (C.sub A)).add ((C.sub A).cross (D.sub A))) A := by
    simp only [Spec.triple, Spec.inner3, V3.add, V3.cross, V3.sub, add_r, mul_r, sub_r]; ring
  have cs : ∀ p q : V3 ℝ, Spec.inner3 p q ≤ p.norm * q.norm := by
    intro p q
    have l := lagrange p q
    have : 0 ≤ Spec.inner3 (p.cross q) (p.cross q) := inner3_self_nonneg _
    rw [norm_r, norm_r, ← Real.sqrt_mul (inner3_self_nonneg _)]
    exact Real.le_sqrt_of_sq_le (by linarith)
  rw [e0, e1, e2, ed]
  generalize (B.sub A).cross (C.sub A) = u
  generalize (C.sub A).cross (D.sub A) = v
  constructor
  · have := cs (u.add v) A
    rw [norm_r A, hA, Real.sqrt_one, mul_one] at this
    linarith
  · have c := cs u v
    have nn : ∀ p : V3 ℝ, p.norm ^ 2 = Spec.inner3 p p := fun p => by rw [norm_r, Real.sq_sqrt (inner3_self_nonneg _)]
    have n0 : ∀ p : V3 ℝ, 0 ≤ p.norm := fun p => by rw [norm_r]; positivity
    have x : Spec.inner3 (u.add v) (u.add v) = Spec.inner3 u u + 2 * Spec.inner3 u v + Spec.inner3 v v := by
      simp only [Spec.inner3, V3.add, add_r]; ring
    have : (u.add v).norm ≤ u.norm + v.norm := by
      apply le_of_sq_le_sq _ (by linarith [n0 u, n0 v])
      rw [nn, x, ← nn u, ← nn v]
      nlinarith
    linarith

/-- **C113**: for a cell of the unit sphere that the diagonal from its first corner cuts into two triangles with sides of length at most `d` and
circumradius at most `r`, the planar value lies between `1 - 3d²/8` and `1/√(1 - r²)` times the spherical one. -/
theorem C113_formulas_agree (A B C D : V3 ℝ) (d r : ℝ) (hA : Spec.OnSphere A) (hB : Spec.OnSphere B) (hC : Spec.OnSphere C) (hD : Spec.OnSphere D)
    (t1 : Spec.LeftTurn A B C) (t2 : Spec.LeftTurn A C D) (s1 : Spec.SmallTri d r A B C) (s2 : Spec.SmallTri d r A C D) (hd : d ^ 2 < 8 / 3) :
    (1 - 3 / 8 * d ^ 2) * squadCell A B C D ≤ pquadCell A B C D ∧ Real.sqrt (1 - r ^ 2) * pquadCell A B C D ≤ squadCell A B C D := by
  rw [C15_sum_of_excesses A B C D hA hB hC hD (nonDeg_of_leftTurn hA hB hC t1) (nonDeg_of_leftTurn hA hC hD t2)]
  obtain ⟨l1, u1⟩ := excess_bounds hA hB hC t1 s1 hd
  obtain ⟨l2, u2⟩ := excess_bounds hA hC hD t2 s2 hd
  have f1 := flat_bound hA hB hC t1 s1
  have f2 := flat_bound hA hC hD t2 s2
  obtain ⟨p1, p2⟩ := pquad_bounds (B := B) (C := C) (D := D) hA
  have := mul_le_mul_of_nonneg_left p2 (Real.sqrt_nonneg (1 - r ^ 2))
  constructor
  · linarith
  · linarith

/-! ## The arrays -/

namespace Spec
/-- The two triangles of cell `i,j` of a mesh of points. -/
structure SmallCell (d r : ℝ) (A B C D : V3 ℝ) : Prop where
  abc : SmallTri d r A B C
  acd : SmallTri d r A C D

/-- Counterclockwise triangles `ABC`, `ACD`. -/
structure LeftCell (A B C D : V3 ℝ) : Prop where
  abc : LeftTurn A B C
  acd : LeftTurn A C D
end Spec

theorem areas_eq (geod : Geod ℝ) (xg yg ex ey : Mat ℝ) (hr : xg.rows = yg.rows) (hc : xg.cols = yg.cols) (h0 : 0 < xg.rows) (h1 : 0 < xg.cols) :
    ∃ u, ∃ planar : Bool, areas geod xg yg ex ey = .ok u ∧ u.rows = xg.rows - 1 ∧ u.cols = xg.cols - 1 ∧
      ∀ i j, i + 1 < xg.rows → j + 1 < xg.cols → u.get i j = (if planar then pquadCell else squadCell) (Spec.point (xg.get i j, yg.get i j))
        (Spec.point (xg.get (i + 1) j, yg.get (i + 1) j)) (Spec.point (xg.get (i + 1) (j + 1), yg.get (i + 1) (j + 1)))
        (Spec.point (xg.get i (j + 1), yg.get i (j + 1))) * (geod.a * geod.a) := by
  have hcart : lonlat2cart xg yg (Arith.mul Arith.half Arith.two) = .ok ⟨xg.rows, xg.cols, fun i j => lonlat2cart1 (xg.get i j) (yg.get i j)⟩ := by
    unfold lonlat2cart
    rw [if_neg (by omega)]
  have c : ∀ x y, Spec.point (x, y) = lonlat2cart1 x y := fun x y => (cart1_point (x, y)).symm
  unfold areas
  rw [hcart]
  simp only [Py.ok_bind]
  split
  · obtain ⟨u, e, r, s, v⟩ := quadLoop_spec pquadCell (⟨xg.rows, xg.cols, fun i j => lonlat2cart1 (xg.get i j) (yg.get i j)⟩ : Mat (V3 ℝ))
    refine ⟨⟨u.rows, u.cols, fun i j => u.get i j * (geod.a * geod.a)⟩, true, ?_, r, s, fun i j hi hj => ?_⟩
    · unfold pquadUarea
      dsimp only
      rw [if_neg (by omega), e]
      rfl
    · dsimp only
      rw [v i j (by dsimp only; omega) (by dsimp only; omega)]
      rw [if_pos rfl, c, c, c, c]
  · obtain ⟨u, e, r, s, v⟩ := quadLoop_spec squadCell (⟨xg.rows, xg.cols, fun i j => lonlat2cart1 (xg.get i j) (yg.get i j)⟩ : Mat (V3 ℝ))
    refine ⟨⟨u.rows, u.cols, fun i j => u.get i j * (geod.a * geod.a)⟩, false, ?_, r, s, fun i j hi hj => ?_⟩
    · unfold squadUarea
      dsimp only
      rw [if_neg (by omega), e]
      rfl
    · dsimp only
      rw [v i j (by dsimp only; omega) (by dsimp only; omega)]
      rw [if_neg Bool.false_ne_true, c, c, c, c]

theorem either_formula (planar : Bool) (A B C D : V3 ℝ) (d r : ℝ) (hA : Spec.OnSphere A) (hB : Spec.OnSphere B) (hC : Spec.OnSphere C)
    (hD : Spec.OnSphere D) (t : Spec.LeftCell A B C D) (s : Spec.SmallCell d r A B C D) (hd : d ^ 2 < 8 / 3) :
    0 < squadCell A B C D ∧ (1 - 3 / 8 * d ^ 2) * squadCell A B C D ≤ (if planar then pquadCell else squadCell) A B C D ∧
      Real.sqrt (1 - r ^ 2) * (if planar then pquadCell else squadCell) A B C D ≤ squadCell A B C D := by
  have pos : 0 < squadCell A B C D := by
    rw [C15_sum_of_excesses A B C D hA hB hC hD (nonDeg_of_leftTurn hA hB hC t.abc) (nonDeg_of_leftTurn hA hC hD t.acd)]
    have l1 := (excess_bounds hA hB hC t.abc s.abc hd).1
    have l2 := (excess_bounds hA hC hD t.acd s.acd hd).1
    have : 0 < Spec.triple A B C := t.abc
    have : 0 < Spec.triple A C D := t.acd
    linarith
  refine ⟨pos, ?_⟩
  cases planar
  · rw [if_neg Bool.false_ne_true]
    constructor
    · nlinarith [sq_nonneg d]
    · have : Real.sqrt (1 - r ^ 2) ≤ 1 := Real.sqrt_le_one.2 (by nlinarith [sq_nonneg r])
      nlinarith
  · rw [if_pos rfl]
    exact C113_formulas_agree A B C D d r hA hB hC hD t.abc t.acd s.abc s.acd hd

/-- **C113** for `computegrid.areas`: whatever edge lengths it is given, and so whichever formula it takes, every small counterclockwise cell gets the
area of the quadrilateral of the sphere up to these factors. -/
theorem C113_areas (geod : Geod ℝ) (xg yg ex ey : Mat ℝ) (hr : xg.rows = yg.rows) (hc : xg.cols = yg.cols) (h0 : 0 < xg.rows) (h1 : 0 < xg.cols)
    (d r : ℝ) (hd : d ^ 2 < 8 / 3) : ∃ u, areas geod xg yg ex ey = .ok u ∧ u.rows = xg.rows - 1 ∧ u.cols = xg.cols - 1 ∧
      ∀ i j A B C D, i + 1 < xg.rows → j + 1 < xg.cols → A = Spec.point (xg.get i j, yg.get i j) → B = Spec.point (xg.get (i + 1) j, yg.get (i + 1) j) →
        C = Spec.point (xg.get (i + 1) (j + 1), yg.get (i + 1) (j + 1)) → D = Spec.point (xg.get i (j + 1), yg.get i (j + 1)) →
        Spec.LeftCell A B C D → Spec.SmallCell d r A B C D →
        (1 - 3 / 8 * d ^ 2) * (geod.a ^ 2 * Spec.quadArea A B C D) ≤ u.get i j ∧
          Real.sqrt (1 - r ^ 2) * u.get i j ≤ geod.a ^ 2 * Spec.quadArea A B C D := by
  obtain ⟨u, planar, e, er, ec, v⟩ := areas_eq geod xg yg ex ey hr hc h0 h1
  refine ⟨u, e, er, ec, fun i j A B C D hi hj eA eB eC eD t s => ?_⟩
  have hA : Spec.OnSphere A := eA ▸ point_unit _
  have hB : Spec.OnSphere B := eB ▸ point_unit _
  have hC : Spec.OnSphere C := eC ▸ point_unit _
  have hD : Spec.OnSphere D := eD ▸ point_unit _
  rw [v i j hi hj, ← eA, ← eB, ← eC, ← eD]
  obtain ⟨-, l, k⟩ := either_formula planar A B C D d r hA hB hC hD t s hd
  have q : Spec.quadArea A B C D = squadCell A B C D :=
    (C15_sum_of_excesses A B C D hA hB hC hD (nonDeg_of_leftTurn hA hB hC t.abc) (nonDeg_of_leftTurn hA hC hD t.acd)).symm
  rw [q]
  have a2 : 0 ≤ geod.a ^ 2 := sq_nonneg _
  have l' := mul_le_mul_of_nonneg_left l a2
  have k' := mul_le_mul_of_nonneg_left k a2
  constructor
  · linarith
  · linarith

/-! ## A whole grid -/

/-- Quarter cells of a box are counterclockwise. -/
theorem box_left {lon1 lat1 lon2 lat2 : ℝ} (hb : Spec.NorthWestBox lon1 lat1 lon2 lat2) {m n : Nat} (hm : 1 ≤ m) (hn : 1 ≤ n) (a b : Nat)
    (ha : a < 2 * m) (hb' : b < 2 * n) : Spec.LeftCell
      (Spec.boxPoint lon1 lat1 lon2 lat2 (a / (2 * m : Nat)) (b / (2 * n : Nat)))
      (Spec.boxPoint lon1 lat1 lon2 lat2 ((a + 1 : Nat) / (2 * m : Nat)) (b / (2 * n : Nat)))
      (Spec.boxPoint lon1 lat1 lon2 lat2 ((a + 1 : Nat) / (2 * m : Nat)) ((b + 1 : Nat) / (2 * n : Nat)))
      (Spec.boxPoint lon1 lat1 lon2 lat2 (a / (2 * m : Nat)) ((b + 1 : Nat) / (2 * n : Nat))) := by
  obtain ⟨h, hp⟩ := box_patch hb
  have frac : ∀ (k N : Nat), 1 ≤ N → ((k : ℝ) / N) < ((k + 1 : Nat) : ℝ) / N := by
    intro k N hN
    have : (0 : ℝ) < N := by exact_mod_cast hN
    apply div_lt_div_of_pos_right _ this
    push_cast; linarith
  have := patch_turns hp _ _ _ _ (nat_div_unit (by omega)).1 (frac a (2 * m) (by omega)) (nat_div_unit (by omega)).2
    (nat_div_unit (k := b) (n := 2 * n) (by omega)).1 (frac b (2 * n) (by omega)) (nat_div_unit (by omega)).2
  exact ⟨this.1, this.2⟩

/-- **C114**: in a grid `mkgrid` makes on a sphere, with either area formula, if every quarter cell is cut into triangles with sides at most `d` and
circumradius at most `r` (on the unit sphere), then all cell areas RAC are positive and between any two columns of corners they add up to the exact
area between those columns up to the factors of C113. -/
theorem C114_strips (R : ℝ) (hR : 0 < R) (geod : Geod ℝ) (hg : Spec.IsSphere R geod) (lon1 lat1 lon2 lat2 : ℝ) (m n : Nat) (hm : 1 ≤ m) (hn : 1 ≤ n)
    (hb : Spec.NorthWestBox lon1 lat1 lon2 lat2) (d r : ℝ) (hd : d ^ 2 < 8 / 3)
    (small : ∀ a b : Nat, a < 2 * m → b < 2 * n → Spec.SmallCell d r
      (Spec.boxPoint lon1 lat1 lon2 lat2 (a / (2 * m : Nat)) (b / (2 * n : Nat)))
      (Spec.boxPoint lon1 lat1 lon2 lat2 ((a + 1 : Nat) / (2 * m : Nat)) (b / (2 * n : Nat)))
      (Spec.boxPoint lon1 lat1 lon2 lat2 ((a + 1 : Nat) / (2 * m : Nat)) ((b + 1 : Nat) / (2 * n : Nat)))
      (Spec.boxPoint lon1 lat1 lon2 lat2 (a / (2 * m : Nat)) ((b + 1 : Nat) / (2 * n : Nat)))) : ∃ g A,
      mkgrid geod lon1 lat1 lon2 lat2 (m : Int) (n : Int) = .ok (g, (m : Int), (n : Int)) ∧ g .RAC = .arr A ∧
      (∀ i j, i < m → j < n → 0 < A.get i j) ∧
      ∀ i0 i1, i0 < i1 → i1 ≤ m → ∀ T, T = R ^ 2 * Spec.quadArea (Spec.boxPoint lon1 lat1 lon2 lat2 (i0 / m) 0)
          (Spec.boxPoint lon1 lat1 lon2 lat2 (i1 / m) 0) (Spec.boxPoint lon1 lat1 lon2 lat2 (i1 / m) 1) (Spec.boxPoint lon1 lat1 lon2 lat2 (i0 / m) 1) →
        (1 - 3 / 8 * d ^ 2) * T ≤ ∑ i ∈ Finset.Ico i0 i1, ∑ j ∈ Finset.range n, A.get i j ∧
        Real.sqrt (1 - r ^ 2) * ∑ i ∈ Finset.Ico i0 i1, ∑ j ∈ Finset.range n, A.get i j ≤ T := by
  obtain ⟨P, g, eq, hP, hv⟩ := mkgrid_sphere R geod hg lon1 lat1 lon2 lat2 m n hm hn (box_of_northWest hb)
  generalize (⟨m, n, fun a b => P a.toNat b.toNat⟩ : Spec.Tile ℝ).usePlanar geod.inv = planar at hv
  obtain ⟨A, hA, v⟩ := hv .RAC
  obtain ⟨h, hp⟩ := box_patch hb
  have hm' : (0 : ℝ) < m := by exact_mod_cast hm
  have R2 : 0 < R * R := by positivity
  have frac : ∀ (k N : Nat), 1 ≤ N → ((k : ℝ) / N) < ((k + 1 : Nat) : ℝ) / N := by
    intro k N hN
    have : (0 : ℝ) < N := by exact_mod_cast hN
    apply div_lt_div_of_pos_right _ this
    push_cast; linarith
  -- quarter cells
  have left := fun (a b : Nat) (ha : a < 2 * m) (hb' : b < 2 * n) => box_left hb hm hn a b ha hb'
  have unit : ∀ a b : Nat, a ≤ 2 * m → b ≤ 2 * n → Spec.OnSphere (Spec.boxPoint lon1 lat1 lon2 lat2 (a / (2 * m : Nat)) (b / (2 * n : Nat))) := by
    intro a b ha hb
    rw [← (hP a b ha hb).1]
    exact point_unit _
  have bounds := fun (a b : Nat) (ha : a < 2 * m) (hb : b < 2 * n) => either_formula planar _ _ _ _ d r (unit a b (by omega) (by omega))
    (unit (a + 1) b (by omega) (by omega)) (unit (a + 1) (b + 1) (by omega) (by omega)) (unit a (b + 1) (by omega) (by omega)) (left a b ha hb)
    (small a b ha hb) hd
  have quarter : ∀ a b : Nat, a < 2 * m → b < 2 * n → (⟨m, n, fun a b => P a.toNat b.toNat⟩ : Spec.Tile ℝ).subA (Spec.quad geod planar) (a : Int) (b : Int) =
      (if planar then pquadCell else squadCell) (Spec.boxPoint lon1 lat1 lon2 lat2 (a / (2 * m : Nat)) (b / (2 * n : Nat)))
        (Spec.boxPoint lon1 lat1 lon2 lat2 ((a + 1 : Nat) / (2 * m : Nat)) (b / (2 * n : Nat)))
        (Spec.boxPoint lon1 lat1 lon2 lat2 ((a + 1 : Nat) / (2 * m : Nat)) ((b + 1 : Nat) / (2 * n : Nat)))
        (Spec.boxPoint lon1 lat1 lon2 lat2 (a / (2 * m : Nat)) ((b + 1 : Nat) / (2 * n : Nat))) * (R * R) := by
    intro a b ha hb
    unfold Spec.Tile.subA
    dsimp only
    rw [if_pos (by omega), quad_point R geod hg, Int.toNat_natCast, Int.toNat_natCast, show ((a : Int) + 1).toNat = a + 1 by omega,
      show ((b : Int) + 1).toNat = b + 1 by omega, (hP a b (by omega) (by omega)).1, (hP (a + 1) b (by omega) (by omega)).1,
      (hP (a + 1) (b + 1) (by omega) (by omega)).1, (hP a (b + 1) (by omega) (by omega)).1]
  have pos : ∀ a b : Nat, a < 2 * m → b < 2 * n → 0 < (⟨m, n, fun a b => P a.toNat b.toNat⟩ : Spec.Tile ℝ).subA (Spec.quad geod planar) (a : Int) (b : Int) := by
    intro a b ha hb
    rw [quarter a b ha hb]
    obtain ⟨p, l, -⟩ := bounds a b ha hb
    exact mul_pos (lt_of_lt_of_le (mul_pos (by linarith) p) l) R2
  have entry : ∀ i j, i < m → j < n → A.get i j =
      (⟨m, n, fun a b => P a.toNat b.toNat⟩ : Spec.Tile ℝ).subA (Spec.quad geod planar) (2 * i : Nat) (2 * j : Nat) +
      (⟨m, n, fun a b => P a.toNat b.toNat⟩ : Spec.Tile ℝ).subA (Spec.quad geod planar) (2 * i + 1 : Nat) (2 * j : Nat) +
      (⟨m, n, fun a b => P a.toNat b.toNat⟩ : Spec.Tile ℝ).subA (Spec.quad geod planar) (2 * i + 1 : Nat) (2 * j + 1 : Nat) +
      (⟨m, n, fun a b => P a.toNat b.toNat⟩ : Spec.Tile ℝ).subA (Spec.quad geod planar) (2 * i : Nat) (2 * j + 1 : Nat) := by
    intro i j hi hj
    rw [v i j (by simp only [Spec.nrows]; omega) (by simp only [Spec.ncols]; omega)]
    have e1 : Spec.halfI .RAC i = ((2 * i + 1 : Nat) : Int) := by simp only [Spec.halfI, Spec.nrows]; simp
    have e2 : Spec.halfJ .RAC j = ((2 * j + 1 : Nat) : Int) := by simp only [Spec.halfJ, Spec.ncols]; simp
    unfold Spec.Tile.entry
    simp only [Spec.kind, e1, e2]
    rw [show ((2 * i + 1 : Nat) : Int) - 1 = ((2 * i : Nat) : Int) by omega, show ((2 * j + 1 : Nat) : Int) - 1 = ((2 * j : Nat) : Int) by omega]
    exact sumOrZero_pos4 (pos _ _ (by omega) (by omega)) (pos _ _ (by omega) (by omega)) (pos _ _ (by omega) (by omega)) (pos _ _ (by omega) (by omega))
  refine ⟨g, A, eq, hA, fun i j hi hj => ?_, fun i0 i1 h01 h1 T hT => ?_⟩
  · rw [entry i j hi hj]
    have := pos (2 * i) (2 * j) (by omega) (by omega)
    have := pos (2 * i + 1) (2 * j) (by omega) (by omega)
    have := pos (2 * i + 1) (2 * j + 1) (by omega) (by omega)
    have := pos (2 * i) (2 * j + 1) (by omega) (by omega)
    linarith
  · have t := (patch_total hp (2 * (i1 - i0)) (2 * n) (by omega) (by omega)
      (fun k => ((2 * i0 + k : Nat) : ℝ) / (2 * m : Nat)) (fun k => ((k : Nat) : ℝ) / (2 * n : Nat)) (by positivity)
      (fun k _ => frac (2 * i0 + k) (2 * m) (by omega)) (nat_div_unit (by omega)).2 (by simp) (fun k _ => frac k (2 * n) (by omega))
      (div_self (by
        have : 2 * n ≠ 0 := by omega
        exact_mod_cast this))).2
    have f0 : ((2 * i0 + 0 : Nat) : ℝ) / (2 * m : Nat) = i0 / m := by push_cast; field_simp; ring
    have f1 : ((2 * i0 + 2 * (i1 - i0) : Nat) : ℝ) / (2 * m : Nat) = i1 / m := by
      rw [show 2 * i0 + 2 * (i1 - i0) = 2 * i1 by omega]; push_cast; field_simp
    rw [f0, f1] at t
    have s0 : 0 ≤ (i0 : ℝ) / m ∧ (i0 : ℝ) / m ≤ 1 := nat_div_unit (by omega)
    have s1 : 0 ≤ (i1 : ℝ) / m ∧ (i1 : ℝ) / m ≤ 1 := nat_div_unit (by omega)
    have S0 := patch_S hp _ s0.1 s0.2
    have S1 := patch_S hp _ s1.1 s1.2
    have N0 := patch_N hp _ s0.1 s0.2
    have N1 := patch_N hp _ s1.1 s1.2
    have q0 : ∀ x, Spec.boxPoint lon1 lat1 lon2 lat2 x 0 = Spec.between (Spec.point (lon1, lat2)) (Spec.point (lon2, lat2)) x := fun x => between_zero
    have q1 : Spec.boxPoint lon1 lat1 lon2 lat2 (i0 / m) 1 = Spec.between (Spec.point (lon1, lat1)) (Spec.point (lon2, lat1)) (i0 / m) :=
      between_one S0.1 N0.1 (hemi_lt_pi S0.1 N0.1 S0.2 N0.2)
    have q2 : Spec.boxPoint lon1 lat1 lon2 lat2 (i1 / m) 1 = Spec.between (Spec.point (lon1, lat1)) (Spec.point (lon2, lat1)) (i1 / m) :=
      between_one S1.1 N1.1 (hemi_lt_pi S1.1 N1.1 S1.2 N1.2)
    have l : (i0 : ℝ) / m < i1 / m := by
      apply div_lt_div_of_pos_right _ hm'
      exact_mod_cast h01
    obtain ⟨t1, -, -, t4⟩ := patch_strip hp _ _ s0.1 l s1.2
    have fin := C15_sum_of_excesses _ _ _ _ S0.1 S1.1 N1.1 N0.1 (nonDeg_of_triple S0.1 S1.1 N1.1 S0.2 S1.2 N1.2 t1)
      (nonDeg_of_triple S0.1 N1.1 N0.1 S0.2 N1.2 N0.2 t4)
    rw [q0, q0, q1, q2] at hT
    unfold Spec.quadArea at hT
    rw [← fin, ← t, pow_two] at hT
    have e : ∑ i ∈ Finset.Ico i0 i1, ∑ j ∈ Finset.range n, A.get i j = ∑ a ∈ Finset.range (2 * (i1 - i0)), ∑ b ∈ Finset.range (2 * n),
          (⟨m, n, fun a b => P a.toNat b.toNat⟩ : Spec.Tile ℝ).subA (Spec.quad geod planar) (2 * i0 + a : Nat) (b : Nat) := by
      rw [Finset.sum_Ico_eq_sum_range, ← sum_quarters]
      refine Finset.sum_congr rfl fun k hk => Finset.sum_congr rfl fun j hj => ?_
      rw [Finset.mem_range] at hk hj
      rw [entry (i0 + k) j (by omega) hj, Nat.mul_add]
      rfl
    rw [e, hT]
    simp only [Finset.mul_sum]
    constructor
    · refine Finset.sum_le_sum fun a ha => Finset.sum_le_sum fun b hb => ?_
      rw [Finset.mem_range] at ha hb
      rw [quarter (2 * i0 + a) b (by omega) hb]
      have := mul_le_mul_of_nonneg_left (bounds (2 * i0 + a) b (by omega) hb).2.1 R2.le
      calc _ = R * R * ((1 - 3 / 8 * d ^ 2) * _) := mul_left_comm _ _ _
        _ ≤ _ := this
        _ = _ := mul_comm _ _
    · refine Finset.sum_le_sum fun a ha => Finset.sum_le_sum fun b hb => ?_
      rw [Finset.mem_range] at ha hb
      rw [quarter (2 * i0 + a) b (by omega) hb]
      have := mul_le_mul_of_nonneg_left (bounds (2 * i0 + a) b (by omega) hb).2.2 R2.le
      calc _ = R * R * (Real.sqrt (1 - r ^ 2) * _) := by rw [mul_comm _ (R * R), mul_left_comm]
        _ ≤ _ := this

/-! ## Concrete cases -/

/-- The circumradius condition without roots. -/
theorem smallTri_of {a b c : V3 ℝ} {d r : ℝ} (ha : Spec.OnSphere a) (hb : Spec.OnSphere b) (hc : Spec.OnSphere c) (h : Spec.LeftTurn a b c)
    (hr : 0 ≤ r) (s1 : Spec.dist2 a b ≤ d ^ 2) (s2 : Spec.dist2 b c ≤ d ^ 2) (s3 : Spec.dist2 c a ≤ d ^ 2)
    (k : Spec.dist2 a b * Spec.dist2 b c * Spec.dist2 c a ≤ r ^ 2 * (4 * Spec.triple a b c ^ 2 + Spec.dist2 a b * Spec.dist2 b c * Spec.dist2 c a)) :
    Spec.SmallTri d r a b c := by
  refine ⟨s1, s2, s3, ?_⟩
  have f := flat_sq ha hb hc
  have h0 : 0 < Spec.triple a b c := h
  have tp : 0 ≤ Spec.triArea a b c := by unfold Spec.triArea; positivity
  have sp : 0 ≤ Spec.dist2 a b * Spec.dist2 b c * Spec.dist2 c a := by unfold Spec.dist2; positivity
  have t0 : 0 < Spec.triArea a b c := by
    rcases tp.lt_or_eq with t | t
    · exact t
    · rw [← t] at f
      have : 0 < Spec.triple a b c ^ 2 := by positivity
      linarith
  unfold Spec.circumradius
  rw [div_le_iff₀ (by positivity), Real.sqrt_le_left (by positivity)]
  nlinarith

/-- A cell near the north pole, about a tenth of a radius wide: the formulas agree to a few per cent. -/
example : ∃ A B C D : V3 ℝ, (31 / 32 : ℝ) * squadCell A B C D ≤ pquadCell A B C D ∧ Real.sqrt (39 / 40) * pquadCell A B C D ≤ squadCell A B C D ∧
    0 < squadCell A B C D := by
  have hA : Spec.OnSphere ⟨0, 0, 1⟩ := by norm_num [Spec.OnSphere, Spec.inner3]
  have hB : Spec.OnSphere ⟨20 / 101, 0, 99 / 101⟩ := by norm_num [Spec.OnSphere, Spec.inner3]
  have hC : Spec.OnSphere ⟨10 / 51, 10 / 51, 49 / 51⟩ := by norm_num [Spec.OnSphere, Spec.inner3]
  have hD : Spec.OnSphere ⟨0, 20 / 101, 99 / 101⟩ := by norm_num [Spec.OnSphere, Spec.inner3]
  have t1 : Spec.LeftTurn ⟨0, 0, 1⟩ ⟨20 / 101, 0, 99 / 101⟩ ⟨10 / 51, 10 / 51, 49 / 51⟩ := by norm_num [Spec.LeftTurn, Spec.triple]
  have t2 : Spec.LeftTurn ⟨0, 0, 1⟩ ⟨10 / 51, 10 / 51, 49 / 51⟩ ⟨0, 20 / 101, 99 / 101⟩ := by norm_num [Spec.LeftTurn, Spec.triple]
  have q : Real.sqrt (1 / 12) ^ 2 = 1 / 12 := Real.sq_sqrt (by norm_num)
  have q' : Real.sqrt (1 / 40) ^ 2 = 1 / 40 := Real.sq_sqrt (by norm_num)
  have m1 : Spec.SmallTri (Real.sqrt (1 / 12)) (Real.sqrt (1 / 40)) ⟨0, 0, 1⟩ ⟨20 / 101, 0, 99 / 101⟩ ⟨10 / 51, 10 / 51, 49 / 51⟩ := by
    refine smallTri_of hA hB hC t1 (Real.sqrt_nonneg _) ?_ ?_ ?_ ?_ <;> (first | rw [q] | rw [q']) <;> norm_num [Spec.dist2, Spec.triple]
  have m2 : Spec.SmallTri (Real.sqrt (1 / 12)) (Real.sqrt (1 / 40)) ⟨0, 0, 1⟩ ⟨10 / 51, 10 / 51, 49 / 51⟩ ⟨0, 20 / 101, 99 / 101⟩ := by
    refine smallTri_of hA hC hD t2 (Real.sqrt_nonneg _) ?_ ?_ ?_ ?_ <;> (first | rw [q] | rw [q']) <;> norm_num [Spec.dist2, Spec.triple]
  have c := C113_formulas_agree _ _ _ _ _ _ hA hB hC hD t1 t2 m1 m2 (by rw [q]; norm_num)
  rw [q, q'] at c
  refine ⟨_, _, _, _, ?_, ?_, (either_formula true _ _ _ _ _ _ hA hB hC hD ⟨t1, t2⟩ ⟨m1, m2⟩ (by rw [q]; norm_num)).1⟩
  · convert c.1 using 2; norm_num
  · convert c.2 using 3; norm_num

theorem inner_between {p q x : V3 ℝ} (hp : Spec.OnSphere p) (hq : Spec.OnSphere q) (c : ℝ) (hc : 0 ≤ c) (hw : arccos (Spec.inner3 p q) < π)
    (h1 : c ≤ Spec.inner3 x p) (h2 : c ≤ Spec.inner3 x q) {t : ℝ} (t0 : 0 ≤ t) (t1 : t ≤ 1) : c ≤ Spec.inner3 x (Spec.between p q t) := by
  obtain ⟨a, b, ha, hb, hab, e⟩ := between_coeff hp hq hw t0 t1
  have u : Spec.inner3 (Spec.between p q t) (Spec.between p q t) = 1 := between_unit hp hq t
  rw [e] at u ⊢
  have e1 : Spec.inner3 x ⟨a * p.x + b * q.x, a * p.y + b * q.y, a * p.z + b * q.z⟩ = a * Spec.inner3 x p + b * Spec.inner3 x q := by
    unfold Spec.inner3; dsimp only; ring
  have e2 : Spec.inner3 (⟨a * p.x + b * q.x, a * p.y + b * q.y, a * p.z + b * q.z⟩ : V3 ℝ) ⟨a * p.x + b * q.x, a * p.y + b * q.y, a * p.z + b * q.z⟩ =
      a ^ 2 * Spec.inner3 p p + b ^ 2 * Spec.inner3 q q + 2 * (a * b) * Spec.inner3 p q := by
    unfold Spec.inner3; dsimp only; ring
  rw [e2, hp, hq] at u
  have m : a * b * Spec.inner3 p q ≤ a * b * 1 := mul_le_mul_of_nonneg_left (inner_le_one hp hq).2 (mul_nonneg ha hb)
  have ab : 1 ≤ a + b := by nlinarith
  rw [e1]
  nlinarith [mul_le_mul_of_nonneg_left h1 ha, mul_le_mul_of_nonneg_left h2 hb]

/-- A box whose corners are pairwise at most a quarter turn apart: all grids on it meet the hypothesis of C114, with some `r < 1`. -/
theorem smallCells_exist {lon1 lat1 lon2 lat2 : ℝ} (hb : Spec.NorthWestBox lon1 lat1 lon2 lat2) {m n : Nat} (hm : 1 ≤ m) (hn : 1 ≤ n) (c d : ℝ)
    (hc : 0 ≤ c) (hd : 2 - 2 * c ≤ d ^ 2)
    (close : ∀ x ∈ [lon1, lon2], ∀ y ∈ [lat1, lat2], ∀ x' ∈ [lon1, lon2], ∀ y' ∈ [lat1, lat2], c ≤ Spec.inner3 (Spec.point (x, y)) (Spec.point (x', y'))) :
    ∃ r, 0 ≤ r ∧ r < 1 ∧ ∀ a b : Nat, a < 2 * m → b < 2 * n → Spec.SmallCell d r
      (Spec.boxPoint lon1 lat1 lon2 lat2 (a / (2 * m : Nat)) (b / (2 * n : Nat)))
      (Spec.boxPoint lon1 lat1 lon2 lat2 ((a + 1 : Nat) / (2 * m : Nat)) (b / (2 * n : Nat)))
      (Spec.boxPoint lon1 lat1 lon2 lat2 ((a + 1 : Nat) / (2 * m : Nat)) ((b + 1 : Nat) / (2 * n : Nat)))
      (Spec.boxPoint lon1 lat1 lon2 lat2 (a / (2 * m : Nat)) ((b + 1 : Nat) / (2 * n : Nat))) := by
  obtain ⟨h, hp⟩ := box_patch hb
  have lt : ∀ p q : V3 ℝ, (Spec.OnSphere p ∧ 0 < Spec.inner3 h p) → (Spec.OnSphere q ∧ 0 < Spec.inner3 h q) → arccos (Spec.inner3 p q) < π :=
    fun p q a b => hemi_lt_pi a.1 b.1 a.2 b.2
  have unit : ∀ s t : ℝ, 0 ≤ s → s ≤ 1 → 0 ≤ t → t ≤ 1 → Spec.OnSphere (Spec.boxPoint lon1 lat1 lon2 lat2 s t) :=
    fun s t a b c d => (patch_inside hp s t a b c d).1
  -- points of the box are close to whatever all corners are close to
  have near : ∀ z : V3 ℝ, (∀ x ∈ [lon1, lon2], ∀ y ∈ [lat1, lat2], c ≤ Spec.inner3 z (Spec.point (x, y))) → ∀ s t : ℝ, 0 ≤ s → s ≤ 1 → 0 ≤ t → t ≤ 1 →
      c ≤ Spec.inner3 z (Spec.boxPoint lon1 lat1 lon2 lat2 s t) := by
    intro z hz s t s0 s1 t0 t1
    have S := patch_S hp s s0 s1
    have N := patch_N hp s s0 s1
    refine inner_between S.1 N.1 c hc (lt _ _ S N) ?_ ?_ t0 t1
    · exact inner_between hp.sw.1 hp.se.1 c hc (lt _ _ hp.sw hp.se) (hz _ (by simp) _ (by simp)) (hz _ (by simp) _ (by simp)) s0 s1
    · exact inner_between hp.nw.1 hp.ne.1 c hc (lt _ _ hp.nw hp.ne) (hz _ (by simp) _ (by simp)) (hz _ (by simp) _ (by simp)) s0 s1
  have all : ∀ s t s' t' : ℝ, 0 ≤ s → s ≤ 1 → 0 ≤ t → t ≤ 1 → 0 ≤ s' → s' ≤ 1 → 0 ≤ t' → t' ≤ 1 →
      Spec.dist2 (Spec.boxPoint lon1 lat1 lon2 lat2 s t) (Spec.boxPoint lon1 lat1 lon2 lat2 s' t') ≤ d ^ 2 := by
    intro s t s' t' a b e f a' b' e' f'
    rw [dist2_unit (unit s t a b e f) (unit s' t' a' b' e' f')]
    have := near (Spec.boxPoint lon1 lat1 lon2 lat2 s t) (fun x hx y hy => by
      rw [inner3_comm]
      exact near _ (fun x' hx' y' hy' => close x hx y hy x' hx' y' hy') s t a b e f) s' t' a' b' e' f'
    linarith
  have lt1 : ∀ x y z : V3 ℝ, Spec.OnSphere x → Spec.OnSphere y → Spec.OnSphere z → Spec.LeftTurn x y z → Spec.circumradius x y z < 1 := by
    intro x y z hx hy hz h
    have f := flat_sq hx hy hz
    have h0 : 0 < Spec.triple x y z := h
    have h2 : 0 < Spec.triple x y z ^ 2 := by positivity
    have tp : 0 ≤ Spec.triArea x y z := by unfold Spec.triArea; positivity
    have sp : 0 ≤ Spec.dist2 x y * Spec.dist2 y z * Spec.dist2 z x := by unfold Spec.dist2; positivity
    have t0 : 0 < Spec.triArea x y z := by
      rcases tp.lt_or_eq with t | t
      · exact t
      · rw [← t] at f
        linarith
    unfold Spec.circumradius
    rw [div_lt_one (by positivity), Real.sqrt_lt' (by positivity)]
    nlinarith
  obtain ⟨⟨a0, b0⟩, m0, mx⟩ := Finset.exists_max_image (Finset.range (2 * m) ×ˢ Finset.range (2 * n))
    (fun i => max (Spec.circumradius
      (Spec.boxPoint lon1 lat1 lon2 lat2 (i.1 / (2 * m : Nat)) (i.2 / (2 * n : Nat)))
      (Spec.boxPoint lon1 lat1 lon2 lat2 ((i.1 + 1 : Nat) / (2 * m : Nat)) (i.2 / (2 * n : Nat)))
      (Spec.boxPoint lon1 lat1 lon2 lat2 ((i.1 + 1 : Nat) / (2 * m : Nat)) ((i.2 + 1 : Nat) / (2 * n : Nat)))) (Spec.circumradius
      (Spec.boxPoint lon1 lat1 lon2 lat2 (i.1 / (2 * m : Nat)) (i.2 / (2 * n : Nat)))
      (Spec.boxPoint lon1 lat1 lon2 lat2 ((i.1 + 1 : Nat) / (2 * m : Nat)) ((i.2 + 1 : Nat) / (2 * n : Nat)))
      (Spec.boxPoint lon1 lat1 lon2 lat2 (i.1 / (2 * m : Nat)) ((i.2 + 1 : Nat) / (2 * n : Nat)))))
    ⟨(0, 0), by simp only [Finset.mem_product, Finset.mem_range]; omega⟩
  simp only [Finset.mem_product, Finset.mem_range] at m0 mx
  have u : ∀ {k N : Nat}, k ≤ N → (0 : ℝ) ≤ (k : ℝ) / N ∧ (k : ℝ) / N ≤ 1 := nat_div_unit
  have un : ∀ a b : Nat, a ≤ 2 * m → b ≤ 2 * n → Spec.OnSphere (Spec.boxPoint lon1 lat1 lon2 lat2 (a / (2 * m : Nat)) (b / (2 * n : Nat))) :=
    fun a b ha hb => unit _ _ (u ha).1 (u ha).2 (u hb).1 (u hb).2
  have ds : ∀ a b a' b' : Nat, a ≤ 2 * m → b ≤ 2 * n → a' ≤ 2 * m → b' ≤ 2 * n →
      Spec.dist2 (Spec.boxPoint lon1 lat1 lon2 lat2 (a / (2 * m : Nat)) (b / (2 * n : Nat)))
        (Spec.boxPoint lon1 lat1 lon2 lat2 (a' / (2 * m : Nat)) (b' / (2 * n : Nat))) ≤ d ^ 2 :=
    fun a b a' b' ha hb ha' hb' => all _ _ _ _ (u ha).1 (u ha).2 (u hb).1 (u hb).2 (u ha').1 (u ha').2 (u hb').1 (u hb').2
  have l0 := box_left hb hm hn a0 b0 m0.1 m0.2
  refine ⟨_, ?_, max_lt (lt1 _ _ _ (un _ _ (by omega) (by omega)) (un _ _ (by omega) (by omega)) (un _ _ (by omega) (by omega)) l0.abc)
    (lt1 _ _ _ (un _ _ (by omega) (by omega)) (un _ _ (by omega) (by omega)) (un _ _ (by omega) (by omega)) l0.acd), fun a b ha hb => ?_⟩
  · apply le_max_of_le_left
    unfold Spec.circumradius Spec.triArea
    positivity
  · have k := mx (a, b) ⟨ha, hb⟩
    exact ⟨⟨ds _ _ _ _ (by omega) (by omega) (by omega) (by omega), ds _ _ _ _ (by omega) (by omega) (by omega) (by omega),
      ds _ _ _ _ (by omega) (by omega) (by omega) (by omega), le_trans (le_max_left _ _) k⟩,
      ⟨ds _ _ _ _ (by omega) (by omega) (by omega) (by omega), ds _ _ _ _ (by omega) (by omega) (by omega) (by omega),
      ds _ _ _ _ (by omega) (by omega) (by omega) (by omega), le_trans (le_max_right _ _) k⟩⟩

/-- The box from 30 degrees west to 30 degrees east and 30 degrees south to 30 degrees north meets the hypotheses of C114 for any numbers of cells. -/
example (m n : Nat) (hm : 1 ≤ m) (hn : 1 ≤ n) : Spec.NorthWestBox (-30) 30 30 (-30) ∧ (Real.sqrt (7 / 4)) ^ 2 < 8 / 3 ∧
    ∃ r, 0 ≤ r ∧ r < 1 ∧ ∀ a b : Nat, a < 2 * m → b < 2 * n → Spec.SmallCell (Real.sqrt (7 / 4)) r
      (Spec.boxPoint (-30) 30 30 (-30) (a / (2 * m : Nat)) (b / (2 * n : Nat)))
      (Spec.boxPoint (-30) 30 30 (-30) ((a + 1 : Nat) / (2 * m : Nat)) (b / (2 * n : Nat)))
      (Spec.boxPoint (-30) 30 30 (-30) ((a + 1 : Nat) / (2 * m : Nat)) ((b + 1 : Nat) / (2 * n : Nat)))
      (Spec.boxPoint (-30) 30 30 (-30) (a / (2 * m : Nat)) ((b + 1 : Nat) / (2 * n : Nat))) := by
  have hb : Spec.NorthWestBox (-30) 30 30 (-30) := by
    refine ⟨?_, ?_, by norm_num, 0, by norm_num, by norm_num⟩ <;> rw [abs_lt] <;> norm_num
  have q : Real.sqrt (7 / 4) ^ 2 = 7 / 4 := Real.sq_sqrt (by norm_num)
  refine ⟨hb, by rw [q]; norm_num, smallCells_exist hb hm hn (1 / 8) _ (by norm_num) (by rw [q]; norm_num) ?_⟩
  have r1 : Spec.rad 30 = π / 6 := by unfold Spec.rad; ring
  have r2 : Spec.rad (-30) = -(π / 6) := by unfold Spec.rad; ring
  have s3 : Real.sqrt 3 * Real.sqrt 3 = 3 := Real.mul_self_sqrt (by norm_num)
  simp only [List.mem_cons, List.not_mem_nil, or_false]
  rintro x (rfl | rfl) y (rfl | rfl) x' (rfl | rfl) y' (rfl | rfl) <;> unfold Spec.inner3 Spec.point <;>
    simp only [r1, r2, sin_neg, cos_neg, sin_pi_div_six, cos_pi_div_six] <;> nlinarith

end SG
