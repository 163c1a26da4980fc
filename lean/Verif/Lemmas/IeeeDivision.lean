import Verif.Lemmas.IeeeNearest
import Verif.Model.MdsFloats
/-! # Floor division of doubles -/
set_option linter.unusedSectionVars false
set_option exponentiation.threshold 5000

namespace SG
namespace Dbl

theorem sig_mod {a b : Nat} (ha : Sig 53 a) (hb : Sig 53 b) : Sig 53 (a % b) := by
  obtain ⟨q1, k1, h1, e1⟩ := ha
  obtain ⟨q2, k2, h2, e2⟩ := hb
  rcases Nat.eq_zero_or_pos b with hb0 | hb0
  · rw [hb0, Nat.mod_zero]; exact ⟨q1, k1, h1, e1⟩
  rcases Nat.le_total k1 k2 with hk | hk
  · have hd : 2 ^ k1 ∣ a % b := (Nat.dvd_mod_iff (by rw [e2]; exact (pow_dvd_pow 2 hk).mul_left q2)).2 (by rw [e1]; exact Dvd.intro_left _ rfl)
    obtain ⟨c, hc⟩ := hd
    refine ⟨c, k1, ?_, by rw [hc, Nat.mul_comm]⟩
    have := Nat.mod_le a b
    rw [hc, e1, Nat.mul_comm] at this
    exact lt_of_le_of_lt (Nat.le_of_mul_le_mul_right this (Nat.two_pow_pos _)) h1
  · have hd : 2 ^ k2 ∣ a % b := (Nat.dvd_mod_iff (by rw [e2]; exact Dvd.intro_left _ rfl)).2 (by rw [e1]; exact (pow_dvd_pow 2 hk).mul_left q1)
    obtain ⟨c, hc⟩ := hd
    refine ⟨c, k2, ?_, by rw [hc, Nat.mul_comm]⟩
    have := Nat.mod_lt a hb0
    rw [hc, e2, Nat.mul_comm] at this
    exact lt_trans (Nat.lt_of_mul_lt_mul_right this) h2

theorem fmod_ok {x y : Dbl} (hx : x.isFin = true) (hy : y.isFin = true) (h0 : y.mag ≠ 0) :
    (fmod x y).isFin = true ∧ (fmod x y).neg = x.neg ∧ (fmod x y).mag = x.mag % y.mag := by
  unfold fmod
  rw [fin_not_nan hx, fin_not_nan hy, fin_not_inf hx, fin_not_inf hy]
  simp only [Bool.or_self, Bool.false_or, Bool.false_eq_true, if_false, decide_eq_true_eq, if_neg h0]
  obtain ⟨q, k, h, e⟩ := sig_mod (mag_sig x) (mag_sig y)
  refine encode_ok ⟨q, k, h.le, e⟩ ?_
  exact lt_of_le_of_lt (Nat.mod_le _ _) (mag_lt x hx)

theorem val_nonneg {x : Dbl} (h : 0 ≤ x.val) : x.val = x.mag / U := by
  rw [← abs_val, abs_of_nonneg h]

theorem val_of_pos {x : Dbl} (h : x.neg = false) : x.val = x.mag / U := by
  rw [val_sign, h]; simp

theorem neg_of_pos {x : Dbl} (h : 0 < x.val) : x.neg = false := by
  cases hn : x.neg with
  | false => rfl
  | true =>
    rw [val_sign, hn] at h
    have : (0 : ℝ) ≤ x.mag / U := div_nonneg (Nat.cast_nonneg _) U_pos.le
    simp only [if_true] at h
    linarith

theorem mag_pos {x : Dbl} (h : x.val ≠ 0) : x.mag ≠ 0 := by
  intro h0
  apply h
  rw [val_sign, h0]; simp

theorem mag_zero {x : Dbl} (h : x.val = 0) : x.mag = 0 := by
  have := abs_val x
  rw [h, abs_zero, eq_comm, div_eq_zero_iff] at this
  rcases this with h | h
  · exact_mod_cast h
  · exact absurd h U_pos.ne'

theorem fin_div {x y : Dbl} (hx : x.isFin = true) (hy : y.isFin = true) (h0 : y.mag ≠ 0) (h : |x.val / y.val| ≤ top) : (div x y).isFin = true := by
  rw [div_fin hx hy h0]
  have m0 : (0 : ℝ) < y.mag := by exact_mod_cast Nat.pos_of_ne_zero h0
  refine (encode_ok (roundFrac_sig _ (Nat.pos_of_ne_zero h0)) ?_).1
  refine round_in_range (exactly_frac _ _ (Nat.pos_of_ne_zero h0)) ?_
  have U0 := U_pos
  rw [abs_div, abs_val, abs_val] at h
  rw [Nat.cast_mul, U_cast, ← top_mul]
  calc (x.mag : ℝ) * U / y.mag = (x.mag / U / (y.mag / U)) * U := by field_simp
    _ ≤ top * U := by gcongr

/-- Whole numbers up to `2⁵³` are doubles. -/
theorem nat_ok (s : Bool) {n : Nat} (h : n ≤ 2 ^ 53) :
    (encode s (n * 2 ^ 1074)).isFin = true ∧ (encode s (n * 2 ^ 1074)).neg = s ∧ (encode s (n * 2 ^ 1074)).mag = n * 2 ^ 1074 := by
  refine encode_ok ⟨n, 1074, h, rfl⟩ ?_
  calc n * 2 ^ 1074 ≤ 2 ^ 53 * 2 ^ 1074 := Nat.mul_le_mul_right _ h
    _ = 2 ^ 1127 := by rw [← pow_add]
    _ < _ := Nat.pow_lt_pow_right (by norm_num) (by norm_num)

theorem nat_val {n : Nat} (h : n ≤ 2 ^ 53) : (encode false (n * 2 ^ 1074)).val = n := by
  obtain ⟨-, h2, h3⟩ := nat_ok false h
  rw [val_of_pos h2, h3, Nat.cast_mul, U_cast, mul_div_cancel_right₀ _ U_pos.ne']

theorem int_of_val {x : Dbl} {n : Int} (h : x.val = n) : x.int = n * 2 ^ 1074 := by
  unfold val at h
  rw [div_eq_iff U_pos.ne', ← U_cast] at h
  have : x.int = n * ((2 ^ 1074 : Nat) : Int) := by exact_mod_cast h
  rw [this]
  generalize 1074 = k
  push_cast; rfl

theorem toInt_ok {x : Dbl} (hx : x.isFin = true) {n : Int} (h : x.val = n) : toInt x = .ok n := by
  unfold toInt
  rw [fin_not_nan hx, fin_not_inf hx]
  simp only [Bool.false_eq_true, if_false]
  rw [int_of_val h, Int.mul_tdiv_cancel]
  exact pow_ne_zero _ (by norm_num)

theorem floor_ok {x : Dbl} (hx : x.isFin = true) (h0 : 0 < x.val) (h1 : x.val ≤ 2 ^ 53) :
    (floor x).isFin = true ∧ (floor x).val = ⌊x.val⌋ := by
  have hn := neg_of_pos h0
  have hU : (0 : Int) < 2 ^ 1074 := pow_pos (by norm_num) _
  have hf : x.int / 2 ^ 1074 = ⌊x.val⌋ := by
    rw [eq_comm, Int.floor_eq_iff]
    unfold val
    have c : ((2 ^ 1074 : Int) : ℝ) = U := by
      rw [← U_cast]; generalize 1074 = k; push_cast; rfl
    constructor
    · rw [le_div_iff₀ U_pos, ← c, ← Int.cast_mul, Int.cast_le]
      exact Int.ediv_mul_le _ hU.ne'
    · rw [div_lt_iff₀ U_pos, ← c]
      have := Int.lt_ediv_add_one_mul_self x.int hU
      generalize (2 : Int) ^ 1074 = w at *
      exact_mod_cast this
  have fp : 0 ≤ ⌊x.val⌋ := Int.floor_nonneg.2 h0.le
  have fb : ⌊x.val⌋ ≤ 2 ^ 53 := by
    have := (Int.floor_le x.val).trans h1
    exact_mod_cast this
  unfold floor
  rw [fin_not_nan hx, fin_not_inf hx, hf, hn]
  simp only [Bool.false_eq_true, if_false]
  have hb : ⌊x.val⌋.natAbs ≤ 2 ^ 53 := by omega
  refine ⟨(nat_ok false hb).1, ?_⟩
  rw [nat_val hb, Nat.cast_natAbs, abs_of_nonneg fp]

theorem one_fin : (lit 1 1).isFin = true := by decide +kernel
theorem one_val' : (lit 1 1).val = 1 := by
  have := (lit_pow 0 (by norm_num)).2
  simpa using this
theorem half_fin : (lit 1 2).isFin = true := by decide +kernel
theorem half_val' : (lit 1 2).val = 1 / 2 := by
  have hi : (lit 1 2).int = 2 ^ 1073 := by decide +kernel
  unfold val
  rw [hi, ← U_cast, pow_succ 2 1073]
  generalize 1073 = k
  push_cast
  have : (2 : ℝ) ^ k ≠ 0 := pow_ne_zero _ (by norm_num)
  field_simp

/-- The last steps of `_float_div_mod`: a quotient within 1/4 of a whole number is rounded to it. -/
theorem snap {r : Dbl} {n : Nat} (hr : r.isFin = true) (n0 : 0 < n) (hn : n ≤ 2 ^ 50) (h : |r.val - n| ≤ 1 / 4) :
    toInt (if lt (lit 1 2) (sub r (floor r)) then add (floor r) (lit 1 1) else floor r) = .ok n := by
  have a := (abs_le.1 h).1
  have b := (abs_le.1 h).2
  have n1 : (1 : ℝ) ≤ n := by exact_mod_cast n0
  have hnr : (n : ℝ) ≤ 2 ^ 50 := by exact_mod_cast hn
  obtain ⟨f1, f2⟩ := floor_ok hr (by linarith) (by
    have : (2 : ℝ) ^ 50 + 1 / 4 ≤ 2 ^ 53 := by norm_num
    linarith)
  have hb1 := Int.floor_le r.val
  have hb2 := Int.lt_floor_add_one r.val
  have hd : |r.val - (floor r).val| ≤ 1 := by rw [f2, abs_le]; constructor <;> linarith
  have hs := fin_sub hr f1 (hd.trans (by simpa using top_big 0 (by norm_num)))
  obtain ⟨-, -, e⟩ := sub_err r (floor r) hs
  have e' : |(sub r (floor r)).val - (r.val - (floor r).val)| ≤ 1 / 8 := by
    refine e.trans ?_
    calc ((2 : ℝ) ^ 53)⁻¹ * |r.val - (floor r).val| ≤ 1 / 8 * 1 := mul_le_mul (by norm_num) hd (abs_nonneg _) (by norm_num)
      _ = 1 / 8 := by norm_num
  obtain ⟨e1, e2⟩ := abs_le.1 e'
  have key := lt_val (x := lit 1 2) (y := sub r (floor r)) (fin_not_nan half_fin) (fin_not_nan hs)
  rw [half_val'] at key
  rcases le_or_gt (n : ℝ) r.val with hge | hlt
  · have hf : ⌊r.val⌋ = n := by
      rw [Int.floor_eq_iff]; constructor
      · simpa using hge
      · have : ((n : Int) : ℝ) = n := by simp
        rw [this]; linarith
    rw [hf] at f2
    have f2' : (floor r).val = n := by rw [f2]; simp
    rw [f2'] at e1 e2
    rw [if_neg (by rw [key]; linarith)]
    exact toInt_ok f1 f2
  · have hf : ⌊r.val⌋ = n - 1 := by
      rw [Int.floor_eq_iff]; push_cast; constructor <;> linarith
    rw [hf] at f2
    push_cast at f2
    rw [f2] at e1 e2
    rw [if_pos (by rw [key]; linarith)]
    have hadd : (floor r).val + (lit 1 1).val = n := by rw [f2, one_val']; ring
    have hfin : (add (floor r) (lit 1 1)).isFin = true := by
      refine fin_add f1 one_fin ?_
      rw [hadd, abs_of_nonneg (by linarith)]
      exact hnr.trans (top_big 50 (by norm_num))
    have := add_nearest hfin (encode false (n * 2 ^ 1074))
    rw [hadd, nat_val (hn.trans (by norm_num)), sub_self, abs_zero] at this
    have := abs_eq_zero.1 (le_antisymm this (abs_nonneg _))
    exact toInt_ok hfin (by push_cast; linarith)

/-- `int(t//dt)` of doubles is the integer part of the exact quotient if that is below `2⁴⁹`. -/
theorem itrOf_ok {t dt : Dbl} (ht : t.isFin = true) (hd : dt.isFin = true) (h0 : 0 ≤ t.val) (h1 : t.val ≤ 2 ^ 1000) (hp : 0 < dt.val)
    (hq : t.val < 2 ^ 49 * dt.val) : timeArith.itrOf t dt = .ok ⌊t.val / dt.val⌋ := by
  have U0 := U_pos
  have hdn := neg_of_pos hp
  have hd0 := mag_pos hp.ne'
  have hdp : (0 : ℝ) < dt.mag := by exact_mod_cast Nat.pos_of_ne_zero hd0
  obtain ⟨f1, f2, f3⟩ := fmod_ok ht hd hd0
  have vt := val_nonneg h0
  have vd := val_nonneg hp.le
  set n := t.mag / dt.mag with hn
  have hfl : ⌊t.val / dt.val⌋ = n := by
    rw [vt, vd, div_div_div_cancel_right₀ U0.ne', Int.floor_div_natCast, Int.floor_natCast]; rfl
  have hdm := Nat.div_add_mod t.mag dt.mag
  have hn49 : (n : ℝ) ≤ 2 ^ 49 := by
    have := Int.floor_le (t.val / dt.val)
    rw [hfl] at this
    have h := (div_lt_iff₀ hp).2 hq
    have c : ((n : Int) : ℝ) = n := by simp
    rw [c] at this
    linarith
  have hneg : t.neg = true → t.mag = 0 := by
    intro h
    have := vt
    rw [val_sign, h] at this
    have m0 : (0 : ℝ) ≤ t.mag / U := div_nonneg (Nat.cast_nonneg _) U0.le
    simp only [if_true] at this
    have : (t.mag : ℝ) / U = 0 := by linarith
    rcases div_eq_zero_iff.1 this with h | h
    · exact_mod_cast h
    · exact absurd h U0.ne'
  have hmod : (fmod t dt).val = (t.mag % dt.mag : Nat) / U := by
    rw [val_sign, f2, f3]
    cases h : t.neg with
    | false => simp
    | true => rw [hneg h]; simp
  have hsub : t.val - (fmod t dt).val = n * dt.val := by
    rw [hmod, vt, vd, ← sub_div, ← mul_div_assoc]
    congr 1
    have : (t.mag : ℝ) = dt.mag * n + (t.mag % dt.mag : Nat) := by exact_mod_cast hdm.symm
    rw [this]; ring
  have nn : (0 : ℝ) ≤ n := Nat.cast_nonneg _
  have hle : n * dt.val ≤ t.val := by
    rw [← hsub, hmod]
    have : (0 : ℝ) ≤ (t.mag % dt.mag : Nat) / U := div_nonneg (Nat.cast_nonneg _) U0.le
    linarith
  have sfin : (sub t (fmod t dt)).isFin = true := by
    refine fin_sub ht f1 ?_
    rw [hsub, abs_of_nonneg (mul_nonneg nn hp.le)]
    exact hle.trans (h1.trans (top_big 1000 (by norm_num)))
  obtain ⟨-, -, e⟩ := sub_err _ _ sfin
  rw [hsub, abs_of_nonneg (mul_nonneg nn hp.le)] at e
  have eq : |(sub t (fmod t dt)).val / dt.val - n| ≤ (2 ^ 53)⁻¹ * n := by
    have : (sub t (fmod t dt)).val / dt.val - n = ((sub t (fmod t dt)).val - n * dt.val) / dt.val := by field_simp
    rw [this, abs_div, abs_of_pos hp, div_le_iff₀ hp, mul_assoc]
    exact e
  have eb : ((2 : ℝ) ^ 53)⁻¹ * n ≤ 1 / 16 := by
    calc ((2 : ℝ) ^ 53)⁻¹ * n ≤ (2 ^ 53)⁻¹ * 2 ^ 49 := by gcongr
      _ = 1 / 16 := by norm_num
  have ebq := abs_le.1 (eq.trans eb)
  have rfin : (div (sub t (fmod t dt)) dt).isFin = true := by
    refine fin_div sfin hd hd0 ?_
    refine le_trans ?_ (top_big 50 (by norm_num))
    rw [abs_le]
    have : (2 : ℝ) ^ 49 + 1 ≤ 2 ^ 50 := by norm_num
    constructor <;> linarith
  have e2 := div_err sfin hd hd0 rfin
  have hUb : 1 / 2 / U ≤ 1 / 16 := by
    rw [div_le_iff₀ U0, U_eq]
    have : (2 : ℝ) ^ 3 ≤ 2 ^ 1074 := pow_le_pow_right₀ (by norm_num) (by norm_num)
    linarith
  have e3 : |(div (sub t (fmod t dt)) dt).val - n| ≤ 1 / 4 := by
    have q1 : |(sub t (fmod t dt)).val / dt.val| ≤ 2 ^ 50 := by
      rw [abs_le]
      have : (2 : ℝ) ^ 49 + 1 ≤ 2 ^ 50 := by norm_num
      constructor <;> linarith
    have q2 : ((2 : ℝ) ^ 53)⁻¹ * |(sub t (fmod t dt)).val / dt.val| ≤ 1 / 8 := by
      calc ((2 : ℝ) ^ 53)⁻¹ * |(sub t (fmod t dt)).val / dt.val| ≤ (2 ^ 53)⁻¹ * 2 ^ 50 := by gcongr
        _ = 1 / 8 := by norm_num
    have q3 := abs_le.1 (e2.trans (add_le_add q2 hUb))
    rw [abs_le]
    constructor <;> linarith
  show (do toInt (← floorDiv t dt)) = _
  unfold floorDiv
  rw [if_neg hd0]
  simp only
  have hc : ¬ ((fmod t dt).mag ≠ 0 ∧ dt.neg ≠ (fmod t dt).neg) := by
    rw [f3, f2, hdn]
    rintro ⟨c1, c2⟩
    have : t.neg = true := by cases h : t.neg <;> simp_all
    rw [hneg this] at c1
    simp at c1
  rw [if_neg hc]
  rw [hfl]
  show toInt _ = _
  rcases Nat.eq_zero_or_pos n with hz | hpos
  · have sz : (sub t (fmod t dt)).val = 0 := by
      rw [hz] at e; simpa using e
    have rz : (div (sub t (fmod t dt)) dt).mag = 0 := by
      apply mag_zero
      rw [div_fin sfin hd hd0, mag_zero sz, Nat.zero_mul, roundFrac_zero (Nat.pos_of_ne_zero hd0)]
      rw [val_sign, (encode_small (n := 0) (by norm_num)).2.2]; simp
    rw [if_pos rz, hz]
    have z := nat_ok (t.neg != dt.neg) (n := 0) (by norm_num)
    rw [Nat.zero_mul] at z
    refine toInt_ok z.1 ?_
    rw [val_sign, z.2.2]; simp
  · have n1 : (1 : ℝ) ≤ n := by exact_mod_cast hpos
    have r0 := (abs_le.1 e3).1
    rw [if_neg (mag_pos (by intro h; rw [h] at r0; linarith))]
    have : n ≤ 2 ^ 50 := by
      have h : (n : ℝ) ≤ ((2 ^ 50 : Nat) : ℝ) := hn49.trans (by norm_num)
      exact_mod_cast h
    exact snap rfin hpos this e3

end Dbl
end SG
