import Verif.Props.DoubleAreas
/-! # C121: longitudes that `fill` stores, in doubles

In the convention without negative longitudes `fill` adds 360 to a negative longitude of `npts`.  In doubles the sum of 360 and a longitude
just below zero is 360 itself, so that the convention is `[0, 360]` and not `[0, 360)`. -/

set_option linter.unusedSectionVars false
set_option exponentiation.threshold 5000

namespace SG

/-- How a longitude `x` of `npts` (finite, between -180 and 180) is stored when no longitude of the input is negative: unchanged unless it is
negative; the double nearest to `x + 360`, which is below 360 unless `x` is within 2⁻⁴⁵ of zero. -/
structure Spec.Wrapped (x L : Dbl) : Prop where
  fin : L.isFin = true
  same : 0 ≤ x.val → L = x
  shift : x.val < -(2 ^ 45)⁻¹ → 0 ≤ L.val ∧ L.val < 360 ∧ |L.val - (x.val + 360)| ≤ (2 ^ 45)⁻¹
  full : -(2 ^ 45)⁻¹ ≤ x.val → x.val < 0 → L.val = 360
  nearest : x.val < 0 → ∀ z : Dbl, z.isFin = true → |L.val - (x.val + 360)| ≤ |z.val - (x.val + 360)|

namespace Dbl

/-- A multiple of `2⁻⁴⁴` up to 512 is a double. -/
theorem exists_grid (n : Nat) (h : n ≤ 2 ^ 53) : ∃ z : Dbl, z.isFin = true ∧ z.val = n / 2 ^ 44 := by
  have hn : n * 2 ^ 1030 < 2 ^ 2098 := by
    calc n * 2 ^ 1030 ≤ 2 ^ 53 * 2 ^ 1030 := Nat.mul_le_mul_right _ h
      _ = 2 ^ 1083 := by rw [← pow_add]
      _ < _ := Nat.pow_lt_pow_right (by norm_num) (by norm_num)
  obtain ⟨f, s, m⟩ := encode_ok (s := false) (n := n * 2 ^ 1030) ⟨n, 1030, h, rfl⟩ hn
  refine ⟨_, f, ?_⟩
  have : (encode false (n * 2 ^ 1030)).int = (n : Int) * 2 ^ 1030 := by
    unfold int; rw [s, m, if_neg (by decide)]; push_cast; rfl
  rw [val_of_int (by norm_num) this]
  norm_num

theorem c360_val : (lit 360 1).val = 360 := by
  rw [val_of_int (q := 360) (k := 1074) (by norm_num) (by decide +kernel)]; norm_num

theorem c360_fin : (lit 360 1).isFin = true := by decide +kernel

/-- The double `-2⁻⁴⁵`. -/
def negTie : Dbl := opp (lit 1 (2 ^ 45))

theorem negTie_val : negTie.val = -(2 ^ 45)⁻¹ := by
  rw [val_of_int (q := -1) (k := 1029) (by norm_num) (by decide +kernel)]; norm_num

theorem round_grid (r : ℝ) (h0 : 0 ≤ r) (h1 : r ≤ 360) : ∃ z : Dbl, z.isFin = true ∧ |z.val - r| ≤ (2 ^ 45)⁻¹ := by
  obtain ⟨n, hn⟩ : ∃ n : Nat, |(n : ℝ) - r * 2 ^ 44| ≤ 1 / 2 := by
    refine ⟨⌊r * 2 ^ 44 + 1 / 2⌋₊, ?_⟩
    have a := Nat.floor_le (show (0 : ℝ) ≤ r * 2 ^ 44 + 1 / 2 by positivity)
    have b := Nat.lt_floor_add_one (r * 2 ^ 44 + 1 / 2)
    rw [abs_le]; constructor <;> linarith
  have hb : n ≤ 2 ^ 53 := by
    have h := (abs_le.1 hn).2
    have : (n : ℝ) ≤ ((2 ^ 53 : Nat) : ℝ) := by
      rw [Nat.cast_pow, Nat.cast_ofNat]
      have : r * 2 ^ 44 ≤ 360 * 2 ^ 44 := by gcongr
      have e : (360 : ℝ) * 2 ^ 44 + 1 / 2 ≤ 2 ^ 53 := by norm_num
      linarith
    exact_mod_cast this
  obtain ⟨z, f, v⟩ := exists_grid n hb
  refine ⟨z, f, ?_⟩
  rw [v]
  have e : (n : ℝ) / 2 ^ 44 - r = ((n : ℝ) - r * 2 ^ 44) / 2 ^ 44 := by field_simp
  rw [e, abs_div, abs_of_pos (show (0 : ℝ) < 2 ^ 44 by positivity), div_le_iff₀ (by positivity)]
  refine hn.trans ?_
  norm_num

theorem wrapped {x : Dbl} (hx : x.isFin = true) (h1 : -180 ≤ x.val) :
    Spec.Wrapped x (if lt x (lit 0 1) then add x (lit 360 1) else x) := by
  have z0 : (lit 0 1).val = 0 := by
    rw [val_of_int (q := 0) (k := 0) (by norm_num) (by decide +kernel)]; simp
  have hl : lt x (lit 0 1) = true ↔ x.val < 0 := by
    rw [lt_val (fin_not_nan hx) (by decide +kernel), z0]
  by_cases hs : x.val < 0
  · rw [if_pos (hl.2 hs)]
    have fL : (add x (lit 360 1)).isFin = true := by
      refine fin_add hx c360_fin ?_
      rw [c360_val, abs_le]
      have := top_big 9 (by norm_num)
      norm_num at this
      constructor <;> linarith
    have near := add_nearest fL
    rw [c360_val] at near
    have e45 : ∀ w : ℝ, w = x.val + 360 → |(add x (lit 360 1)).val - w| ≤ (2 ^ 45)⁻¹ := by
      rintro w rfl
      obtain ⟨z, -, hz⟩ := round_grid (x.val + 360) (by linarith) (by linarith)
      exact (near z).trans hz
    have e := e45 _ rfl
    refine ⟨fL, fun h => absurd hs (not_lt.2 h), fun h => ?_, fun h _ => ?_, fun _ z _ => near z⟩
    · have e' := abs_le.1 e
      refine ⟨by norm_num at *; linarith, ?_, e⟩
      obtain ⟨z, -, hz⟩ := exists_grid (360 * 2 ^ 44 - 1) (by norm_num)
      have nz := near z
      rw [hz] at nz
      by_cases hc : ((360 * 2 ^ 44 - 1 : Nat) : ℝ) / 2 ^ 44 ≤ x.val + 360
      · rw [abs_of_nonpos (sub_nonpos.2 hc)] at nz
        have := (abs_le.1 nz).2
        norm_num at *
        linarith
      · norm_num at *
        linarith
    · have n360 := near (lit 360 1)
      rw [c360_val, abs_of_nonneg (show 0 ≤ 360 - (x.val + 360) by linarith)] at n360
      have n' := abs_le.1 n360
      have up : (add x (lit 360 1)).val ≤ 360 := by linarith
      have lo : 360 - (2 ^ 44)⁻¹ ≤ (add x (lit 360 1)).val := by norm_num at *; linarith
      have pos : 256 ≤ |(add x (lit 360 1)).val| := by
        refine le_trans ?_ (le_abs_self _)
        norm_num at *; linarith
      obtain ⟨n, hn⟩ := grid_256 pos
      rw [abs_of_pos (by norm_num at *; linarith)] at hn
      have c1 : (n : ℝ) ≤ ((360 * 2 ^ 44 : Nat) : ℝ) := by
        rw [hn, div_le_iff₀ (by positivity)] at up; norm_num at *; exact up
      have c2 : ((360 * 2 ^ 44 - 1 : Nat) : ℝ) ≤ n := by
        rw [hn, le_div_iff₀ (by positivity)] at lo; norm_num at *; linarith
      have c1' : n ≤ 360 * 2 ^ 44 := by exact_mod_cast c1
      have c2' : 360 * 2 ^ 44 - 1 ≤ n := by exact_mod_cast c2
      rcases Nat.eq_or_lt_of_le c1' with rfl | hlt
      · rw [hn]; norm_num
      · exfalso
        have hn' : n = 360 * 2 ^ 44 - 1 := by omega
        rw [hn'] at hn
        have xe : x.val = negTie.val := by
          rw [negTie_val]
          rw [hn] at n'
          norm_num at *
          linarith
        have : x = negTie := eq_of_val hx (by decide +kernel) xe hs.ne
        rw [this, show add negTie (lit 360 1) = lit 360 1 by decide +kernel, c360_val] at hn
        norm_num at hn
  · rw [if_neg (by rw [hl]; exact hs)]
    exact ⟨hx, fun _ => rfl, fun h => absurd (h.trans (by norm_num)) hs, fun _ h => absurd h hs, fun h => absurd h hs⟩

end Dbl

/-- The longitudes that satisfy the convention without negative numbers, as given to `fill`. -/
def Spec.Lon360 (x : Dbl) : Prop := x.isFin = true ∧ 0 ≤ x.val ∧ x.val < 360

/-- `npts` returns finite longitudes from -180 to 180. -/
def Spec.Npts180 (geod : Geod Dbl) : Prop :=
  ∀ a b c d n k, (geod.npt a b c d n k).1.isFin = true ∧ -180 ≤ (geod.npt a b c d n k).1.val ∧ (geod.npt a b c d n k).1.val ≤ 180

section
variable [Libm]

theorem nonNeg_of {xg : Mat Dbl} (h : ∀ r c, r < xg.rows → c < xg.cols → Spec.Lon360 (xg.get r c)) : Spec.NonNeg xg := by
  intro r c hr hc
  obtain ⟨f, h0, -⟩ := h r c hr hc
  have z0 : (Dbl.lit 0 1).val = 0 := by
    rw [val_of_int (q := 0) (k := 0) (by norm_num) (by decide +kernel)]; simp
  show Dbl.lt (xg.get r c) (Dbl.lit 0 1) = false
  rw [← Bool.not_eq_true, Dbl.lt_val (Dbl.fin_not_nan f) (by decide +kernel), z0]
  exact not_lt.2 h0

theorem Spec.Wrapped.range {x L : Dbl} (h : Spec.Wrapped x L) (h2 : x.val ≤ 180) :
    L.isFin = true ∧ 0 ≤ L.val ∧ L.val ≤ 360 := by
  refine ⟨h.fin, ?_⟩
  rcases lt_or_ge x.val 0 with hs | hs
  · rcases lt_or_ge x.val (-(2 ^ 45)⁻¹) with ht | ht
    · exact ⟨(h.shift ht).1, (h.shift ht).2.1.le⟩
    · rw [h.full ht hs]; norm_num
  · rw [h.same hs]; exact ⟨hs, by linarith⟩

/-- **C121**: from longitudes in `[0, 360)` and `npts` longitudes in `[-180, 180]`, `fill` makes finite longitudes in `[0, 360]`; every longitude
of a subdivision point is `Wrapped`. -/
theorem C121_double_longitudes (geod : Geod Dbl) (xg yg : Mat Dbl) (ilb iub jlb jub ls lt : Nat)
    (hw : Spec.FillWindow xg yg ilb iub jlb jub ls lt)
    (hin : ∀ r c, r < xg.rows → c < xg.cols → Spec.Lon360 (xg.get r c)) (hnp : Spec.Npts180 geod) :
    ∃ s, fill geod xg yg ilb iub jlb jub ls lt = .ok s ∧
      (∀ r c, r < s.1.rows → c < s.1.cols → (s.1.get r c).isFin = true ∧ 0 ≤ (s.1.get r c).val ∧ (s.1.get r c).val ≤ 360) ∧
      (∀ i j k, ilb + (i + 1) * (2 * ls) ≤ iub → jlb + j * (2 * lt) ≤ jub → k < 2 * ls - 1 →
        Spec.Wrapped (geod.npt (xg.get (ilb + i * (2 * ls)) (jlb + j * (2 * lt))) (yg.get (ilb + i * (2 * ls)) (jlb + j * (2 * lt)))
            (xg.get (ilb + (i + 1) * (2 * ls)) (jlb + j * (2 * lt))) (yg.get (ilb + (i + 1) * (2 * ls)) (jlb + j * (2 * lt))) (2 * ls - 1) k).1
          (s.1.get (ilb + i * (2 * ls) + (k + 1)) (jlb + j * (2 * lt)))) ∧
      (∀ r j k, ilb ≤ r → r ≤ iub → jlb + (j + 1) * (2 * lt) ≤ jub → k < 2 * lt - 1 →
        Spec.Wrapped (geod.npt (s.1.get r (jlb + j * (2 * lt))) (s.2.get r (jlb + j * (2 * lt)))
            (s.1.get r (jlb + (j + 1) * (2 * lt))) (s.2.get r (jlb + (j + 1) * (2 * lt))) (2 * lt - 1) k).1
          (s.1.get r (jlb + j * (2 * lt) + (k + 1)))) := by
  have hnn := nonNeg_of hin
  obtain ⟨s, e, a, b⟩ := C18_fill_subdivides geod xg yg ilb iub jlb jub ls lt hw
  obtain ⟨s', e', ⟨r1, c1, -, -⟩, out, -⟩ := C17_fill_preserves geod xg yg ilb iub jlb jub ls lt hw
  obtain rfl : s = s' := by rw [e] at e'; injection e'
  have wr : ∀ a b c d n k out, Spec.Stored xg (geod.npt a b c d n k).1 out → Spec.Wrapped (geod.npt a b c d n k).1 out := by
    intro a b c d n k out h
    rw [h.1 hnn]
    obtain ⟨f, l, -⟩ := hnp a b c d n k
    exact Dbl.wrapped f l
  refine ⟨s, e, fun r c hr hc => ?_, fun i j k h1 h2 h3 => wr _ _ _ _ _ _ _ (a i j k h1 h2 h3).1,
    fun r j k h1 h2 h3 h4 => wr _ _ _ _ _ _ _ (b r j k h1 h2 h3 h4).1⟩
  obtain ⟨hr', hc', hls, hlt, ⟨p, hp, rfl⟩, ⟨q, hq, rfl⟩, hi, hj⟩ := hw
  obtain ⟨s', e', s1, s2, s3, s4, v⟩ := fill_spec geod xg yg ilb jlb p q ls lt hr' hc' hp hq hls hlt hi hj
  obtain rfl : s = s' := by rw [e] at e'; injection e'
  have hs : ∀ n k a b, (sub geod (wraps xg) n k a b).1.isFin = true ∧ 0 ≤ (sub geod (wraps xg) n k a b).1.val ∧
      (sub geod (wraps xg) n k a b).1.val ≤ 360 := by
    intro n k a b
    exact (wr _ _ _ _ _ _ _ (isSub_sub geod xg n k a b).1).range (hnp _ _ _ _ _ _).2.2
  have := congrArg Prod.fst (v r c)
  simp only [pt] at this
  rw [this]
  unfold fill2
  split
  · exact hs _ _ _ _
  · unfold fill1
    split
    · exact hs _ _ _ _
    · obtain ⟨f, h0, h1⟩ := hin r c (by omega) (by omega)
      exact ⟨f, h0, h1.le⟩

end

section Example
local instance exLibm0 : Libm := ⟨id, id, id, fun _ => Dbl.nanD⟩

/-- A tile from 350 to 10 degrees east whose middle comes out of `npts` as `-2⁻⁵⁰`. -/
def exLonGeod : Geod Dbl := ⟨fun _ _ _ _ => Dbl.lit 1 1, fun _ _ _ _ _ _ => (Dbl.opp (Dbl.lit 1 (2 ^ 50)), Dbl.lit 0 1), Dbl.lit 1 1⟩
def exLonX : Mat Dbl := ⟨5, 5, fun i _ => if i = 1 then Dbl.lit 350 1 else Dbl.lit 10 1⟩
def exLonY : Mat Dbl := ⟨5, 5, fun _ j => if j = 1 then Dbl.lit 0 1 else Dbl.lit 10 1⟩

example : Spec.FillWindow exLonX exLonY 1 3 1 3 1 1 :=
  ⟨rfl, rfl, by decide, by decide, ⟨1, by decide, rfl⟩, ⟨1, by decide, rfl⟩, by decide, by decide⟩

example : ∀ r c, r < exLonX.rows → c < exLonX.cols → Spec.Lon360 (exLonX.get r c) := by
  have v10 : (Dbl.lit 10 1).val = 10 := by
    rw [val_of_int (q := 10) (k := 1074) (by norm_num) (by decide +kernel)]; norm_num
  have v350 : (Dbl.lit 350 1).val = 350 := by
    rw [val_of_int (q := 350) (k := 1074) (by norm_num) (by decide +kernel)]; norm_num
  intro r c _ _
  show Spec.Lon360 (if r = 1 then Dbl.lit 350 1 else Dbl.lit 10 1)
  split
  · exact ⟨by decide +kernel, by rw [v350]; norm_num, by rw [v350]; norm_num⟩
  · exact ⟨by decide +kernel, by rw [v10]; norm_num, by rw [v10]; norm_num⟩

example : Spec.Npts180 exLonGeod := by
  intro a b c d n k
  have v : (Dbl.opp (Dbl.lit 1 (2 ^ 50))).val = -(2 ^ 50)⁻¹ := by
    rw [val_of_int (q := -1) (k := 1024) (by norm_num) (by decide +kernel)]; norm_num
  show (Dbl.opp (Dbl.lit 1 (2 ^ 50))).isFin = true ∧ -180 ≤ (Dbl.opp (Dbl.lit 1 (2 ^ 50))).val ∧ (Dbl.opp (Dbl.lit 1 (2 ^ 50))).val ≤ 180
  rw [v]
  exact ⟨by decide +kernel, by norm_num, by norm_num⟩

/-- Its middle is stored at longitude 360.0, not 0.0. -/
example : ∃ s, fill exLonGeod exLonX exLonY 1 3 1 3 1 1 = .ok s ∧ s.1.get 2 1 = Dbl.lit 360 1 ∧ s.1.get 1 1 = Dbl.lit 350 1 := by
  refine ⟨_, rfl, ?_⟩
  decide +kernel

end Example
end SG
