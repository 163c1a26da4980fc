import Verif.Props.DoubleLongitudes
/-! # C122: spherical areas at the poles

`squad_uarea` divides by the sines of the sides.  Two corners at a pole are, in doubles, one point: the side has the cosine 1.0 and the sine 0. -/

set_option linter.unusedSectionVars false
set_option exponentiation.threshold 5000

namespace SG
namespace Dbl

theorem add_nan {x y : Dbl} (h : x.isNaN = true ∨ y.isNaN = true) : (add x y).isNaN = true := by
  unfold add
  rw [if_pos (by simpa using h)]; exact nanD_isNaN

theorem sub_nan {x y : Dbl} (h : x.isNaN = true ∨ y.isNaN = true) : (sub x y).isNaN = true := by
  unfold sub
  split
  · exact nanD_isNaN
  · exact add_nan (by rw [opp_nan]; exact h)

theorem mul_nan {x y : Dbl} (h : x.isNaN = true ∨ y.isNaN = true) : (mul x y).isNaN = true := by
  unfold mul
  simp only
  rw [if_pos (by simpa using h)]; exact nanD_isNaN

theorem nan_not_fin {x : Dbl} (h : x.isNaN = true) : x.isFin = false := by
  by_contra hc
  rw [fin_not_nan (by simpa using hc)] at h
  cases h

theorem mul_zero_or {x y : Dbl} (h : x.mag = 0 ∨ y.mag = 0) : (mul x y).mag = 0 ∨ (mul x y).isNaN = true := by
  unfold mul
  simp only
  split
  · exact .inr nanD_isNaN
  · split
    · exact .inr nanD_isNaN
    · left
      have e : x.mag * y.mag = 0 := by rcases h with h | h <;> simp [h]
      rw [e, roundFrac_zero (Nat.two_pow_pos _)]
      exact (encode_small (s := x.neg != y.neg) (n := 0) (by norm_num)).2.2

theorem inf_mag {x : Dbl} (h : x.mag = 0) : x.isInf = false := by
  by_contra hc
  have := hc
  simp only [isInf, Bool.not_eq_false, decide_eq_true_eq] at this
  unfold mag at h
  rw [if_neg (by omega)] at h
  have := Nat.two_pow_pos (x.expo - 1)
  rcases Nat.mul_eq_zero.1 h with h | h <;> omega

theorem div_not_fin {x y : Dbl} (h : y.mag = 0 ∨ y.isNaN = true) : (div x y).isFin = false := by
  unfold div
  simp only
  by_cases hn : (x.isNaN || y.isNaN) = true
  · rw [if_pos hn]; exact nanD_not_fin
  · rw [if_neg hn]
    have h0 : y.mag = 0 := by
      rcases h with h | h
      · exact h
      · simp [h] at hn
    have hi := inf_mag h0
    generalize (x.neg != y.neg) = s
    by_cases hx : x.isInf = true
    · rw [if_pos hx, if_neg (by rw [hi]; decide)]; exact infD_not_fin _
    · rw [if_neg hx, if_neg (by rw [hi]; decide), if_pos h0]
      by_cases h1 : x.mag = 0
      · rw [if_pos h1]; exact nanD_not_fin
      · rw [if_neg h1]; exact infD_not_fin _

theorem one_val : (lit 1 1).val = 1 := by
  rw [val_of_int (q := 1) (k := 1074) (by norm_num) (by decide +kernel)]; norm_num

theorem zero_val : (lit 0 1).val = 0 := by
  rw [val_of_int (q := 0) (k := 0) (by norm_num) (by decide +kernel)]; simp

/-- A number of at most `2⁻⁶⁰` added to 1 is lost. -/
theorem add_one {t : Dbl} (ht : t.isFin = true) (h : |t.val| ≤ (2 ^ 60)⁻¹) : add t (lit 1 1) = lit 1 1 := by
  have h' := abs_le.1 h
  have f : (add t (lit 1 1)).isFin = true := by
    refine fin_add ht (by decide +kernel) ?_
    rw [one_val, abs_le]
    have := top_big 9 (by norm_num)
    norm_num at *
    constructor <;> linarith
  have n := add_nearest f (lit 1 1)
  rw [one_val] at n
  have e : |(1 : ℝ) - (t.val + 1)| = |t.val| := by rw [← abs_neg]; congr 1; ring
  rw [e] at n
  have n' := abs_le.1 (n.trans h)
  have lo : 1 / 2 ≤ |(add t (lit 1 1)).val| := le_trans (by norm_num at *; linarith) (le_abs_self _)
  obtain ⟨k, hk⟩ := grid_half lo
  rw [abs_of_pos (by norm_num at *; linarith)] at hk
  have a1 : ((2 ^ 53 - 1 : Nat) : ℝ) < k := by
    have : (k : ℝ) = (add t (lit 1 1)).val * 2 ^ 53 := by rw [hk]; field_simp
    rw [this]; norm_num at *; linarith
  have a2 : (k : ℝ) < ((2 ^ 53 + 1 : Nat) : ℝ) := by
    have : (k : ℝ) = (add t (lit 1 1)).val * 2 ^ 53 := by rw [hk]; field_simp
    rw [this]; norm_num at *; linarith
  have b1 : 2 ^ 53 - 1 < k := by exact_mod_cast a1
  have b2 : k < 2 ^ 53 + 1 := by exact_mod_cast a2
  obtain rfl : k = 2 ^ 53 := by omega
  have v : (add t (lit 1 1)).val = (lit 1 1).val := by rw [hk, one_val]; norm_num
  exact eq_of_val f (by decide +kernel) v (by rw [v, one_val]; norm_num)

end Dbl

/-- What is used of the C library: sines and cosines are at most 1, those of 90 and -90 degrees are right (the cosine of the double nearest to pi/2 is
6.1e-17), `arccos(1) = 0`, `sin(0) = 0`, and `arccos` of an infinity or a NaN is NaN. -/
structure Spec.PoleLibm [Libm] : Prop where
  cos : ∀ x : Dbl, x.isFin = true → (Libm.cos x).isFin = true ∧ |(Libm.cos x).val| ≤ 1
  sin : ∀ x : Dbl, x.isFin = true → (Libm.sin x).isFin = true ∧ |(Libm.sin x).val| ≤ 1
  cos90 : |(Libm.cos (Arith.radians (Dbl.lit 90 1))).val| ≤ (2 ^ 53)⁻¹
  cos270 : |(Libm.cos (Arith.radians (Dbl.opp (Dbl.lit 90 1)))).val| ≤ (2 ^ 53)⁻¹
  sin90 : Libm.sin (Arith.radians (Dbl.lit 90 1)) = Dbl.lit 1 1
  sin270 : Libm.sin (Arith.radians (Dbl.opp (Dbl.lit 90 1))) = Dbl.opp (Dbl.lit 1 1)
  arccos1 : Libm.arccos (Dbl.lit 1 1) = Dbl.lit 0 1
  sin0 : (Libm.sin (Dbl.lit 0 1)).mag = 0
  arccosOut : ∀ x : Dbl, x.isFin = false → (Libm.arccos x).isNaN = true

section
variable [Libm]

theorem tri_nan (lib : Spec.PoleLibm) {a b c : V3 Dbl}
    (h : V3.dot b c = Dbl.lit 1 1 ∨ V3.dot a c = Dbl.lit 1 1 ∨ V3.dot a b = Dbl.lit 1 1) :
    (triAngles a b c).1.isNaN = true ∨ (triAngles a b c).2.1.isNaN = true ∨ (triAngles a b c).2.2.isNaN = true := by
  have z : ∀ d : Dbl, d = Dbl.lit 1 1 → (Libm.sin (Libm.arccos d)).mag = 0 := by
    intro d hd; rw [hd, lib.arccos1]; exact lib.sin0
  have q : ∀ x s t : Dbl, s.mag = 0 ∨ t.mag = 0 → (Libm.arccos (Dbl.div x (Dbl.mul s t))).isNaN = true := fun x s t h =>
    lib.arccosOut _ (Dbl.div_not_fin (Dbl.mul_zero_or h))
  rcases h with h | h | h
  · exact .inr (.inl (q _ _ _ (.inl (z _ h))))
  · exact .inl (q _ _ _ (.inl (z _ h)))
  · exact .inl (q _ _ _ (.inr (z _ h)))

theorem squad_nan (lib : Spec.PoleLibm) {a b c d : V3 Dbl}
    (h : V3.dot b c = Dbl.lit 1 1 ∨ V3.dot a b = Dbl.lit 1 1 ∨ V3.dot c d = Dbl.lit 1 1 ∨ V3.dot a d = Dbl.lit 1 1) :
    (squadCell a b c d).isNaN = true := by
  have s : ∀ x1 x2 x3 x4 x5 x6 y : Dbl, (x1.isNaN = true ∨ x2.isNaN = true ∨ x3.isNaN = true) ∨ x4.isNaN = true ∨ x5.isNaN = true ∨ x6.isNaN = true →
      (Dbl.sub (Dbl.add (Dbl.add (Dbl.add (Dbl.add (Dbl.add x1 x2) x3) x4) x5) x6) y).isNaN = true := by
    intro x1 x2 x3 x4 x5 x6 y h
    apply Dbl.sub_nan; left
    rcases h with (h | h | h) | h | h | h
    · exact Dbl.add_nan (.inl (Dbl.add_nan (.inl (Dbl.add_nan (.inl (Dbl.add_nan (.inl (Dbl.add_nan (.inl h)))))))))
    · exact Dbl.add_nan (.inl (Dbl.add_nan (.inl (Dbl.add_nan (.inl (Dbl.add_nan (.inl (Dbl.add_nan (.inr h)))))))))
    · exact Dbl.add_nan (.inl (Dbl.add_nan (.inl (Dbl.add_nan (.inl (Dbl.add_nan (.inr h)))))))
    · exact Dbl.add_nan (.inl (Dbl.add_nan (.inl (Dbl.add_nan (.inr h)))))
    · exact Dbl.add_nan (.inl (Dbl.add_nan (.inr h)))
    · exact Dbl.add_nan (.inr h)
  refine s _ _ _ _ _ _ _ ?_
  rcases h with h | h | h | h
  · exact .inl (tri_nan lib (.inl h))
  · exact .inl (tri_nan lib (.inr (.inr h)))
  · exact .inr (tri_nan lib (.inl h))
  · exact .inr (tri_nan lib (.inr (.inl h)))

theorem tiny_mul {a b c : ℝ} {x y : Dbl} (hx : Within a x) (hy : Within b y) (hc : 2 * (a * b) + (2 ^ 200)⁻¹ ≤ c ∧ a * b ≤ 1) :
    Within c (Dbl.mul x y) := by
  have h1 : |x.val * y.val| ≤ a * b := by
    rw [abs_mul]; exact mul_le_mul hx.2 hy.2 (abs_nonneg _) ((abs_nonneg _).trans hx.2)
  have f : (Dbl.mul x y).isFin = true := Dbl.fin_mul hx.1 hy.1 (h1.trans (hc.2.trans ((by norm_num : (1 : ℝ) ≤ 2 ^ 9).trans (Dbl.top_big 9 (by norm_num)))))
  refine ⟨f, ?_⟩
  obtain ⟨-, -, e⟩ := doubles.mul x y f
  have h2 : |(Dbl.mul x y).val| ≤ |x.val * y.val| + |(Dbl.mul x y).val - x.val * y.val| := by
    have := abs_add_le (x.val * y.val) ((Dbl.mul x y).val - x.val * y.val)
    rwa [add_sub_cancel] at this
  have h3 : ((2 : ℝ) ^ 53)⁻¹ * |x.val * y.val| ≤ 1 * |x.val * y.val| := mul_le_mul_of_nonneg_right two53 (abs_nonneg _)
  have h4 := tiny_small
  have e' : |(Dbl.mul x y).val - x.val * y.val| ≤ (2 ^ 53)⁻¹ * |x.val * y.val| + tiny := e
  linarith [hc.1]

/-- A grid point at a pole: latitude 90 or -90, any finite longitude up to a full turn. -/
def Spec.AtPole (north : Bool) (lon lat : Dbl) : Prop :=
  Spec.Degrees lon ∧ lat = if north then Dbl.lit 90 1 else Dbl.opp (Dbl.lit 90 1)

theorem pole_dot (lib : Spec.PoleLibm) {n : Bool} {x1 y1 x2 y2 : Dbl} (h1 : Spec.AtPole n x1 y1) (h2 : Spec.AtPole n x2 y2) :
    V3.dot (lonlat2cart1 x1 y1) (lonlat2cart1 x2 y2) = Dbl.lit 1 1 := by
  obtain ⟨d1, e1⟩ := h1
  obtain ⟨d2, e2⟩ := h2
  rw [e1, e2]
  have fr : ∀ north : Bool, (Arith.radians (if north then Dbl.lit 90 1 else Dbl.opp (Dbl.lit 90 1)) : Dbl).isFin = true := by
    intro b; show (Dbl.mul _ (Dbl.div Dbl.piD (Dbl.lit 180 1))).isFin = true
    cases b <;> decide +kernel
  obtain ⟨fc, hc⟩ : (Libm.cos (Arith.radians (if n then Dbl.lit 90 1 else Dbl.opp (Dbl.lit 90 1)))).isFin = true ∧
      |(Libm.cos (Arith.radians (if n then Dbl.lit 90 1 else Dbl.opp (Dbl.lit 90 1)))).val| ≤ (2 ^ 53)⁻¹ := by
    refine ⟨(lib.cos _ (fr n)).1, ?_⟩
    cases n
    · simp only [Bool.false_eq_true, if_false]; exact lib.cos270
    · simp only [if_true]; exact lib.cos90
  have z : Dbl.mul (Libm.sin (Arith.radians (if n then Dbl.lit 90 1 else Dbl.opp (Dbl.lit 90 1))))
      (Libm.sin (Arith.radians (if n then Dbl.lit 90 1 else Dbl.opp (Dbl.lit 90 1)))) = Dbl.lit 1 1 := by
    cases n
    · simp only [Bool.false_eq_true, if_false]; rw [lib.sin270]; decide +kernel
    · simp only [if_true]; rw [lib.sin90]; decide +kernel
  have r1 := (radians_err d1).1
  have r2 := (radians_err d2).1
  show Dbl.add (Dbl.add (Dbl.mul (Dbl.mul (Libm.cos _) (Libm.cos _)) (Dbl.mul (Libm.cos _) (Libm.cos _)))
    (Dbl.mul (Dbl.mul (Libm.sin _) (Libm.cos _)) (Dbl.mul (Libm.sin _) (Libm.cos _)))) (Dbl.mul (Libm.sin _) (Libm.sin _)) = _
  rw [z]
  generalize Libm.cos (Arith.radians (if n then Dbl.lit 90 1 else Dbl.opp (Dbl.lit 90 1))) = c at fc hc ⊢
  obtain ⟨fa, ha⟩ := lib.cos _ r1
  obtain ⟨fb, hb⟩ := lib.cos _ r2
  obtain ⟨fs, hs⟩ := lib.sin _ r1
  obtain ⟨ft, ht⟩ := lib.sin _ r2
  generalize Libm.cos (Arith.radians x1) = a at *
  generalize Libm.cos (Arith.radians x2) = b at *
  generalize Libm.sin (Arith.radians x1) = s at *
  generalize Libm.sin (Arith.radians x2) = t at *
  have W : ∀ {u : Dbl}, u.isFin = true → |u.val| ≤ 1 → Within (2 ^ 51)⁻¹ (Dbl.mul u c) := by
    intro u fu hu
    exact tiny_mul ⟨fu, hu⟩ ⟨fc, hc⟩ (by norm_num)
  have P : ∀ {u v : Dbl}, Within (2 ^ 51)⁻¹ u → Within (2 ^ 51)⁻¹ v → Within (2 ^ 63)⁻¹ (Dbl.mul u v) := fun hu hv =>
    tiny_mul hu hv (by norm_num)
  have S : Within (2 ^ 60)⁻¹ (Dbl.add (Dbl.mul (Dbl.mul a c) (Dbl.mul b c)) (Dbl.mul (Dbl.mul s c) (Dbl.mul t c))) :=
    Within.add (P (W fa ha) (W fb hb)) (P (W fs hs) (W ft ht)) (by norm_num) ((by norm_num : _ ≤ (2 : ℝ) ^ 9).trans (Dbl.top_big 9 (by norm_num)))
  exact Dbl.add_one S.1 S.2

/-- The two ends of one side of the cell `(i, j)` are at the same pole. -/
def Spec.PoleSide (X Y : Nat → Nat → Dbl) (i j : Nat) : Prop :=
  ∃ n, (Spec.AtPole n (X i j) (Y i j) ∧ Spec.AtPole n (X (i + 1) j) (Y (i + 1) j)) ∨
    (Spec.AtPole n (X (i + 1) j) (Y (i + 1) j) ∧ Spec.AtPole n (X (i + 1) (j + 1)) (Y (i + 1) (j + 1))) ∨
    (Spec.AtPole n (X (i + 1) (j + 1)) (Y (i + 1) (j + 1)) ∧ Spec.AtPole n (X i (j + 1)) (Y i (j + 1))) ∨
    (Spec.AtPole n (X i j) (Y i j) ∧ Spec.AtPole n (X i (j + 1)) (Y i (j + 1)))

theorem quadOf_pole (lib : Spec.PoleLibm) (geod : Geod Dbl) {X Y : Nat → Nat → Dbl} {i j : Nat} (h : Spec.PoleSide X Y i j) :
    (quadOf geod false (X i j, Y i j) (X (i + 1) j, Y (i + 1) j) (X (i + 1) (j + 1), Y (i + 1) (j + 1)) (X i (j + 1), Y i (j + 1))).isNaN = true := by
  obtain ⟨n, h⟩ := h
  unfold quadOf
  refine Dbl.mul_nan (.inl ?_)
  simp only [Bool.false_eq_true, if_false]
  refine squad_nan lib ?_
  rcases h with ⟨a, b⟩ | ⟨a, b⟩ | ⟨a, b⟩ | ⟨a, b⟩
  · exact .inr (.inl (pole_dot lib a b))
  · exact .inl (pole_dot lib a b)
  · exact .inr (.inr (.inl (pole_dot lib a b)))
  · exact .inr (.inr (.inr (pole_dot lib a b)))

/-- **C122**: where `areas` takes the spherical formula, the area of every cell with a side at a pole is NaN. -/
theorem C122_pole_areas (lib : Spec.PoleLibm) (geod : Geod Dbl) (xg yg ex ey : Mat Dbl) (hr : xg.rows = yg.rows) (hc : xg.cols = yg.cols)
    (hr0 : 0 < xg.rows) (hc0 : 0 < xg.cols)
    (hs : PyFloat.lt (PyFloat.mean (nonzeros ex)) PyFloat.planar = false ∨ PyFloat.lt (PyFloat.mean (nonzeros ey)) PyFloat.planar = false) :
    ∃ M, areas geod xg yg ex ey = .ok M ∧ M.rows = xg.rows - 1 ∧ M.cols = xg.cols - 1 ∧
      ∀ i j, i + 1 < xg.rows → j + 1 < xg.cols → Spec.PoleSide xg.get yg.get i j → (M.get i j).isNaN = true := by
  obtain ⟨M, e, r, c, v⟩ := areas_spec geod xg yg ex ey hr.symm hc.symm hr0 hc0
  refine ⟨M, e, r, c, fun i j hi hj h => ?_⟩
  rw [v i j (by omega) (by omega)]
  have b : (PyFloat.lt (PyFloat.mean (nonzeros ex)) PyFloat.planar && PyFloat.lt (PyFloat.mean (nonzeros ey)) PyFloat.planar) = false := by
    rcases hs with h | h <;> simp [h]
  rw [b]
  exact quadOf_pole lib geod h

theorem isZero_nan {x : Dbl} (h : x.isNaN = true) : PyFloat.isZero x = false := by
  show decide (x.mag = 0) = false
  rw [decide_eq_false_iff_not]
  intro h0
  simp only [Dbl.isNaN, decide_eq_true_eq] at h
  unfold Dbl.mag at h0
  rw [if_neg (by omega)] at h0
  have := Nat.two_pow_pos (x.expo - 1)
  rcases Nat.mul_eq_zero.1 h0 with h | h <;> omega

theorem foldl_nan (l : List Dbl) (x : Dbl) (h : x.isNaN = true ∨ ∃ y ∈ l, y.isNaN = true) : (l.foldl Arith.add x).isNaN = true := by
  induction l generalizing x with
  | nil =>
    rcases h with h | ⟨y, hy, -⟩
    · exact h
    · cases hy
  | cons z l ih =>
    refine ih _ ?_
    rcases h with h | ⟨y, hy, h⟩
    · exact .inl (Dbl.add_nan (.inl h))
    · rcases List.mem_cons.1 hy with rfl | hy
      · exact .inl (Dbl.add_nan (.inr h))
      · exact .inr ⟨y, hy, h⟩

theorem sumOrZero_nan (l : List Dbl) (h : ∃ y ∈ l, y.isNaN = true) : (Spec.sumOrZero l).isNaN = true ∨ Spec.sumOrZero l = Arith.zero := by
  unfold Spec.sumOrZero
  split
  · exact .inr rfl
  · left
    obtain ⟨y, hy, hn⟩ := h
    cases l with
    | nil => cases hy
    | cons x xs =>
      refine foldl_nan xs x ?_
      rcases List.mem_cons.1 hy with rfl | hy
      · exact .inl hn
      · exact .inr ⟨y, hy, hn⟩

/-- **C122** for a whole tile: with the spherical formula, an area is NaN (or zero, if another quarter of the cell has no area) if one of the quarter
cells around its point, with half-cell indices `a`, `b`, has a side at a pole. -/
theorem C122_pole_tile (lib : Spec.PoleLibm) (geod : Geod Dbl) (xg yg : Mat Dbl) (m n : Nat) (h : Spec.Ringed xg yg m n)
    (hs : (Spec.tile xg yg m n).usePlanar geod.inv = false) :
    ∃ g, tomitgridRing geod xg yg m n = .ok g ∧ ∀ f, Spec.kind f = .area → ∃ M, g f = .arr M ∧
      ∀ i j (a b : Nat), i < Spec.nrows f m → j < Spec.ncols f n → a < 2 * m → b < 2 * n →
        ((a : Int) = Spec.halfI f i ∨ (a : Int) = Spec.halfI f i - 1) → ((b : Int) = Spec.halfJ f j ∨ (b : Int) = Spec.halfJ f j - 1) →
        Spec.PoleSide (fun k l => xg.get (k + 1) (l + 1)) (fun k l => yg.get (k + 1) (l + 1)) a b →
        (M.get i j).isNaN = true ∨ M.get i j = Arith.zero := by
  obtain ⟨g, e, v⟩ := C61_area_formula geod xg yg m n h
  refine ⟨g, e, fun f hf => ?_⟩
  obtain ⟨M, hM, w⟩ := v f hf
  refine ⟨M, hM, fun i j a b hi hj ha hb hia hjb hp => ?_⟩
  rw [w i j hi hj, hs]
  unfold Spec.Tile.entry
  rw [hf]
  refine sumOrZero_nan _ ⟨(Spec.tile xg yg m n).subA (Spec.quad geod false) a b, ?_, ?_⟩
  · simp only [List.mem_cons, List.not_mem_nil, or_false]
    rcases hia with h1 | h1 <;> rcases hjb with h2 | h2 <;> rw [h1, h2] <;> simp
  · unfold Spec.Tile.subA
    have hm : (Spec.tile xg yg m n).m = m := rfl
    have hn : (Spec.tile xg yg m n).n = n := rfl
    rw [if_pos (by rw [hm, hn]; omega)]
    have q := quadOf_pole lib geod hp
    have t : ∀ k : Nat, ((k : Int) + 1).toNat = k + 1 := fun k => by omega
    have t' : ∀ k : Nat, ((k : Int) + 1 + 1).toNat = k + 1 + 1 := fun k => by omega
    simp only [Spec.tile, t, t']
    exact q

end

section Example

def exR90 : Dbl := Dbl.mul (Dbl.lit 90 1) degK
def exR270 : Dbl := Dbl.mul (Dbl.opp (Dbl.lit 90 1)) degK

/-- A crude C library that is right where it matters. -/
local instance exPoleLibm : Libm where
  cos x := if x = exR90 ∨ x = exR270 then Dbl.lit 1 (2 ^ 54) else Dbl.lit 1 2
  sin x := if x = exR90 then Dbl.lit 1 1 else if x = exR270 then Dbl.opp (Dbl.lit 1 1) else if x.mag = 0 then x else Dbl.lit 1 2
  arccos x := if x = Dbl.lit 1 1 then Dbl.lit 0 1 else if x.isFin then Dbl.lit 1 2 else Dbl.nanD
  mean _ := Dbl.lit 20000 1

theorem exPole : Spec.PoleLibm := by
  have h : (Dbl.lit 1 2).val = 1 / 2 := by
    rw [val_of_int (q := 1) (k := 1073) (by norm_num) (by decide +kernel)]; norm_num
  have h54 : (Dbl.lit 1 (2 ^ 54)).val = (2 ^ 54)⁻¹ := by
    rw [val_of_int (q := 1) (k := 1020) (by norm_num) (by decide +kernel)]; norm_num
  have c90 : Libm.cos exR90 = Dbl.lit 1 (2 ^ 54) := if_pos (.inl rfl)
  have c270 : Libm.cos exR270 = Dbl.lit 1 (2 ^ 54) := if_pos (.inr rfl)
  have c90' : |(Libm.cos exR90).val| ≤ (2 ^ 53)⁻¹ := by rw [c90, h54, abs_of_pos (by positivity)]; norm_num
  have c270' : |(Libm.cos exR270).val| ≤ (2 ^ 53)⁻¹ := by rw [c270, h54, abs_of_pos (by positivity)]; norm_num
  refine ⟨fun x hx => ?_, fun x hx => ?_, c90', c270', if_pos rfl, ?_, if_pos rfl, by decide +kernel, fun x hx => ?_⟩
  · by_cases hc : x = exR90 ∨ x = exR270
    · have e : Libm.cos x = Dbl.lit 1 (2 ^ 54) := if_pos hc
      rw [e, h54, abs_of_pos (by positivity)]
      exact ⟨by decide +kernel, by norm_num⟩
    · have e : Libm.cos x = Dbl.lit 1 2 := if_neg hc
      rw [e, h]
      exact ⟨by decide +kernel, by norm_num⟩
  · show (if x = exR90 then Dbl.lit 1 1 else if x = exR270 then Dbl.opp (Dbl.lit 1 1) else if x.mag = 0 then x else Dbl.lit 1 2).isFin = true ∧ _
    change _ ∧ |(if x = exR90 then Dbl.lit 1 1 else if x = exR270 then Dbl.opp (Dbl.lit 1 1) else if x.mag = 0 then x else Dbl.lit 1 2).val| ≤ 1
    by_cases h1 : x = exR90
    · rw [if_pos h1, Dbl.one_val]; exact ⟨by decide +kernel, by norm_num⟩
    · rw [if_neg h1]
      by_cases h2 : x = exR270
      · rw [if_pos h2, Dbl.opp_val, Dbl.one_val]; exact ⟨by decide +kernel, by norm_num⟩
      · rw [if_neg h2]
        by_cases h3 : x.mag = 0
        · rw [if_pos h3, Dbl.abs_val, h3]; exact ⟨hx, by simp⟩
        · rw [if_neg h3, h]; exact ⟨by decide +kernel, by norm_num⟩
  · have e : Libm.sin exR270 = Dbl.opp (Dbl.lit 1 1) := (if_neg (by decide +kernel)).trans (if_pos rfl)
    exact e
  · have h1 : x ≠ Dbl.lit 1 1 := by
      intro hc; rw [hc] at hx; revert hx; decide +kernel
    have e : Libm.arccos x = Dbl.nanD := (if_neg h1).trans (if_neg (by rw [hx]; decide))
    rw [e]; exact Dbl.nanD_isNaN

/-- The cell from 60 to 90 degrees north, 30 degrees wide. -/
def exPoleX : Mat Dbl := ⟨2, 2, fun i _ => if i = 0 then Dbl.lit 0 1 else Dbl.lit 30 1⟩
def exPoleY : Mat Dbl := ⟨2, 2, fun _ j => if j = 0 then Dbl.lit 60 1 else Dbl.lit 90 1⟩

example : Spec.PoleSide exPoleX.get exPoleY.get 0 0 := by
  have v30 : (Dbl.lit 30 1).val = 30 := by
    rw [val_of_int (q := 30) (k := 1074) (by norm_num) (by decide +kernel)]; norm_num
  refine ⟨true, .inr (.inr (.inl ⟨⟨⟨by decide +kernel, ?_⟩, by decide +kernel⟩, ⟨⟨by decide +kernel, ?_⟩, by decide +kernel⟩⟩))⟩
  · rw [show exPoleX.get (0 + 1) (0 + 1) = Dbl.lit 30 1 by decide +kernel, v30]; norm_num
  · rw [show exPoleX.get 0 (0 + 1) = Dbl.lit 0 1 by decide +kernel, Dbl.zero_val]; norm_num

/-- Its area is NaN, that of the cell from 60 to 30 degrees north is not. -/
example : (areas ⟨fun _ _ _ _ => Dbl.lit 20000 1, fun _ _ _ _ _ _ => (Dbl.lit 0 1, Dbl.lit 0 1), Dbl.lit 1 1⟩ exPoleX exPoleY
      ⟨1, 2, fun _ _ => Dbl.lit 20000 1⟩ ⟨2, 1, fun _ _ => Dbl.lit 20000 1⟩).toOption.map (fun M => (M.get 0 0).isNaN) = some true ∧
    (areas ⟨fun _ _ _ _ => Dbl.lit 20000 1, fun _ _ _ _ _ _ => (Dbl.lit 0 1, Dbl.lit 0 1), Dbl.lit 1 1⟩ exPoleX
      ⟨2, 2, fun _ j => if j = 0 then Dbl.lit 30 1 else Dbl.lit 60 1⟩
      ⟨1, 2, fun _ _ => Dbl.lit 20000 1⟩ ⟨2, 1, fun _ _ => Dbl.lit 20000 1⟩).toOption.map (fun M => (M.get 0 0).isNaN) = some false := by
  decide +kernel

end Example
end SG
