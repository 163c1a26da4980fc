import Verif.Lemmas.IeeeOps
import Verif.Model.MdsData
/-! # Single precision -/
set_option linter.unusedSectionVars false
set_option exponentiation.threshold 5000

namespace SG

instance : F32 Dbl := ⟨Sgl.ofDbl, Sgl.toDbl⟩

namespace Sgl

theorem pack_toNat (s : Bool) {e f : Nat} (he : e < 256) (hf : f < 2 ^ 23) :
    (pack s e f).toNat = (if s then 2 ^ 31 else 0) + e * 2 ^ 23 + f := by
  unfold pack
  rw [BitVec.toNat_ofNat, Nat.mod_eq_of_lt]
  split <;> omega

theorem pack_neg (s : Bool) {e f : Nat} (he : e < 256) (hf : f < 2 ^ 23) : neg (pack s e f) = s := by
  unfold neg
  rw [pack_toNat s he hf]
  cases s <;> simp <;> omega

theorem pack_expo (s : Bool) {e f : Nat} (he : e < 256) (hf : f < 2 ^ 23) : expo (pack s e f) = e := by
  unfold expo
  rw [pack_toNat s he hf]
  split <;> omega

theorem pack_frac (s : Bool) {e f : Nat} (he : e < 256) (hf : f < 2 ^ 23) : frac (pack s e f) = f := by
  unfold frac
  rw [pack_toNat s he hf]
  split <;> omega

theorem expo_lt (b : BitVec 32) : expo b < 256 := Nat.mod_lt _ (by norm_num)
theorem frac_lt (b : BitVec 32) : frac b < 2 ^ 23 := Nat.mod_lt _ (by norm_num)

theorem mag_sig (b : BitVec 32) : Sig 24 (mag b) := by
  have hf := frac_lt b
  unfold mag
  split
  · exact ⟨frac b, 0, by omega, by simp⟩
  · exact ⟨_, _, by omega, rfl⟩

theorem mag_lt (b : BitVec 32) (h : expo b ≠ 255) : mag b < 2 ^ 277 := by
  have hf := frac_lt b
  have he := expo_lt b
  unfold mag
  split
  · exact hf.trans (Nat.pow_lt_pow_right (by norm_num) (by norm_num))
  · calc (2 ^ 23 + frac b) * 2 ^ (expo b - 1) < 2 ^ 24 * 2 ^ (expo b - 1) :=
          Nat.mul_lt_mul_of_pos_right (by omega) (Nat.two_pow_pos _)
      _ = 2 ^ (24 + (expo b - 1)) := by rw [pow_add]
      _ ≤ 2 ^ 277 := Nat.pow_le_pow_right (by norm_num) (by omega)

section
variable {s : Bool} {n : Nat}

theorem encode_ok (h : ∃ q k, q ≤ 2 ^ 24 ∧ n = q * 2 ^ k) (hn : n < 2 ^ 277) :
    expo (encode s n) ≠ 255 ∧ neg (encode s n) = s ∧ mag (encode s n) = n := by
  rcases Nat.lt_or_ge n (2 ^ 23) with hs | hs
  · unfold encode
    rw [if_pos hs]
    refine ⟨?_, pack_neg s (by norm_num) hs, ?_⟩
    · rw [pack_expo s (by norm_num) hs]; norm_num
    · unfold mag
      rw [pack_expo s (by norm_num) hs, pack_frac s (by norm_num) hs, if_pos rfl]
  · obtain ⟨f, hf, e1, e2⟩ := sig_normal (P := 23) h hs
    have n0 : n ≠ 0 := by omega
    have hl : Nat.log2 n < 277 := (Nat.log2_lt n0).2 hn
    unfold encode
    rw [if_neg (by omega)]
    simp only
    rw [if_neg (by omega), e2]
    have he : Nat.log2 n - 23 + 1 < 256 := by omega
    refine ⟨?_, pack_neg s he hf, ?_⟩
    · rw [pack_expo s he hf]; omega
    · unfold mag
      rw [pack_expo s he hf, pack_frac s he hf, if_neg (by omega), Nat.add_sub_cancel]
      exact e1.symm

/-- Numbers out of range become infinite. -/
theorem encode_big (hn : 2 ^ 277 ≤ n) : encode s n = pack s 255 0 := by
  have n0 : n ≠ 0 := by have := Nat.two_pow_pos 277; omega
  have hl : 277 ≤ Nat.log2 n := (Nat.le_log2 n0).2 hn
  unfold encode
  rw [if_neg (by omega)]
  simp only
  rw [if_pos (by omega)]

end

/-- Widening is exact. -/
theorem toDbl_spec {b : BitVec 32} (h : expo b ≠ 255) :
    (toDbl b).isFin = true ∧ (toDbl b).neg = neg b ∧ (toDbl b).mag = mag b * 2 ^ 925 := by
  unfold toDbl
  rw [if_neg h]
  refine Dbl.encode_ok ?_ ?_
  · obtain ⟨q, k, hq, e⟩ := mag_sig b
    exact ⟨q, k + 925, by omega, by rw [e, pow_add, mul_assoc]⟩
  · calc mag b * 2 ^ 925 < 2 ^ 277 * 2 ^ 925 := Nat.mul_lt_mul_of_pos_right (mag_lt b h) (Nat.two_pow_pos _)
      _ = 2 ^ (277 + 925) := by rw [pow_add]
      _ ≤ 2 ^ 2098 := Nat.pow_le_pow_right (by norm_num) (by norm_num)

/-- The number of units in the last place of the smallest single. -/
theorem cast_925 : ((2 ^ 925 : Nat) : ℝ) = Dbl.U / 2 ^ 149 := by
  rw [← Dbl.U_cast, show (1074 : Nat) = 925 + 149 by norm_num, pow_add, Nat.cast_mul]
  generalize ((2 ^ 925 : Nat) : ℝ) = a
  rw [Nat.cast_pow, Nat.cast_ofNat]
  field_simp

theorem roundFrac_sig (a : Nat) : ∃ q k, q ≤ 2 ^ 24 ∧ roundFrac 24 a (2 ^ 925) = q * 2 ^ k :=
  roundTo_sig (exactly_frac a _ (Nat.two_pow_pos _))

theorem ofDbl_fin {x : Dbl} (h : x.isFin = true) : ofDbl x = encode x.neg (roundFrac 24 x.mag (2 ^ 925)) := by
  unfold ofDbl
  rw [Dbl.fin_not_nan h, Dbl.fin_not_inf h]
  simp only [Bool.false_eq_true, if_false]

/-- Error of storing a number in single precision and reading it again. -/
theorem single_err {x : Dbl} (h : x.isFin = true) (hf : (toDbl (ofDbl x)).isFin = true) :
    |(toDbl (ofDbl x)).val - x.val| ≤ (2 ^ 24)⁻¹ * |x.val| + (2 ^ 150)⁻¹ ∧ (toDbl (ofDbl x)).neg = x.neg := by
  have U0 := Dbl.U_pos
  rw [ofDbl_fin h] at hf ⊢
  have hn : roundFrac 24 x.mag (2 ^ 925) < 2 ^ 277 := by
    by_contra hc
    rw [encode_big (not_lt.1 hc)] at hf
    unfold toDbl at hf
    rw [if_pos (pack_expo _ (by norm_num) (by norm_num)), if_pos (pack_frac _ (by norm_num) (by norm_num)), Dbl.infD_not_fin] at hf
    exact absurd hf (by decide)
  obtain ⟨h1, h2, h3⟩ := encode_ok (s := x.neg) (roundFrac_sig x.mag) hn
  obtain ⟨-, h5, h6⟩ := toDbl_spec h1
  rw [h2] at h5
  rw [h3] at h6
  refine ⟨?_, h5⟩
  have hr := roundTo_rel_abs (p := 24) (by norm_num) (exactly_frac x.mag (2 ^ 925) (Nat.two_pow_pos _))
  rw [Dbl.abs_val]
  unfold Dbl.val
  rw [Dbl.int_cast, Dbl.int_cast, h5, h6, ← sub_div, abs_div, Dbl.signed_abs, abs_of_pos U0, Nat.cast_mul]
  rw [cast_925] at hr ⊢
  change |(roundFrac 24 x.mag (2 ^ 925) : ℝ) - _| ≤ _ at hr
  generalize (roundFrac 24 x.mag (2 ^ 925) : ℝ) = R at *
  generalize (x.mag : ℝ) = m at *
  generalize Dbl.U = u at *
  have e : |R * (u / 2 ^ 149) - m| / u = |R - m / (u / 2 ^ 149)| / 2 ^ 149 := by
    have : R * (u / 2 ^ 149) - m = (R - m / (u / 2 ^ 149)) * (u / 2 ^ 149) := by field_simp
    rw [this, abs_mul, abs_of_pos (show 0 < u / 2 ^ 149 by positivity)]
    field_simp
  rw [e, div_le_iff₀ (by positivity)]
  refine hr.trans (le_of_eq ?_)
  field_simp

/-- No overflow up to `2¹²⁷`. -/
theorem single_fin {x : Dbl} (h : x.isFin = true) (hx : |x.val| ≤ 2 ^ 127) : (toDbl (ofDbl x)).isFin = true := by
  have U0 := Dbl.U_pos
  rw [ofDbl_fin h]
  refine (toDbl_spec (encode_ok (s := x.neg) (roundFrac_sig x.mag) ?_).1).1
  have hex := exactly_frac x.mag (2 ^ 925) (Nat.two_pow_pos _)
  have e := (abs_le.1 (roundTo_rel_abs (p := 24) (by norm_num) hex)).2
  rw [Dbl.abs_val, div_le_iff₀ U0] at hx
  rw [cast_925] at e
  change (roundFrac 24 x.mag (2 ^ 925) : ℝ) - _ ≤ _ at e
  have r1 : (x.mag : ℝ) / (Dbl.U / 2 ^ 149) ≤ 2 ^ 276 := by
    rw [div_le_iff₀ (by positivity)]
    calc (x.mag : ℝ) ≤ 2 ^ 127 * Dbl.U := hx
      _ = 2 ^ 276 * (Dbl.U / 2 ^ 149) := by field_simp
  have r0 : (0 : ℝ) ≤ (x.mag : ℝ) / (Dbl.U / 2 ^ 149) := by positivity
  have : (roundFrac 24 x.mag (2 ^ 925) : ℝ) < 2 ^ 277 := by
    generalize (roundFrac 24 x.mag (2 ^ 925) : ℝ) = R at *
    generalize (x.mag : ℝ) / (Dbl.U / 2 ^ 149) = m at *
    have k : ((2 : ℝ) ^ 24)⁻¹ ≤ 1 / 4 := by norm_num
    have : ((2 : ℝ) ^ 24)⁻¹ * m ≤ 1 / 4 * 2 ^ 276 := mul_le_mul k r1 r0 (by norm_num)
    have one : (1 : ℝ) ≤ 2 ^ 276 := by norm_num
    have e2 : (2 : ℝ) ^ 277 = 2 * 2 ^ 276 := by norm_num
    rw [e2]
    generalize (2 : ℝ) ^ 276 = B at *
    linarith
  exact_mod_cast this

/-- Overflow from `2¹²⁸` on. -/
theorem single_inf {x : Dbl} (h : x.isFin = true) (hx : 2 ^ 128 ≤ |x.val|) : toDbl (ofDbl x) = Dbl.infD x.neg := by
  have U0 := Dbl.U_pos
  rw [ofDbl_fin h]
  have hbig : 2 ^ 277 ≤ roundFrac 24 x.mag (2 ^ 925) := by
    have hm : 2 ^ 277 * 2 ^ 925 ≤ x.mag := by
      rw [Dbl.abs_val, le_div_iff₀ U0] at hx
      have : ((2 ^ 277 * 2 ^ 925 : Nat) : ℝ) ≤ x.mag := by
        rw [Nat.cast_mul, cast_925]
        refine le_trans (le_of_eq ?_) hx
        rw [Nat.cast_pow, Nat.cast_ofNat, show (277 : Nat) = 128 + 149 by norm_num, pow_add]; field_simp
      exact_mod_cast this
    have hfl : 2 ^ 277 ≤ x.mag / 2 ^ 925 := (Nat.le_div_iff_mul_le (Nat.two_pow_pos _)).2 hm
    -- `2 ^ 277` is a multiple of the step, so rounding stays above it
    have hex := exactly_frac x.mag (2 ^ 925) (Nat.two_pow_pos _)
    unfold roundFrac
    generalize x.mag / 2 ^ 925 = fl at *
    have hq : 2 ^ 277 ≤ fl / 2 ^ ulpExp 24 fl * 2 ^ ulpExp 24 fl := by
      have n0 : fl ≠ 0 := by have := Nat.two_pow_pos 277; omega
      have hl : 277 ≤ Nat.log2 fl := (Nat.le_log2 n0).2 hfl
      have hs := Nat.log2_self_le n0
      unfold ulpExp
      have : 2 ^ 23 ≤ fl / 2 ^ (fl.log2 + 1 - 24) := by
        rw [Nat.le_div_iff_mul_le (Nat.two_pow_pos _), ← pow_add]
        exact (Nat.pow_le_pow_right (by norm_num) (by omega)).trans hs
      calc 2 ^ 277 ≤ 2 ^ (23 + (fl.log2 + 1 - 24)) := Nat.pow_le_pow_right (by norm_num) (by omega)
        _ = 2 ^ 23 * 2 ^ (fl.log2 + 1 - 24) := by rw [pow_add]
        _ ≤ _ := Nat.mul_le_mul_right _ this
    rcases roundTo_cases (p := 24) hex with ⟨e, -⟩ | ⟨e, -⟩
    · rw [e]; exact hq
    · rw [e, Nat.add_mul]; exact hq.trans (Nat.le_add_right _ _)
  rw [encode_big hbig]
  unfold toDbl
  rw [if_pos (pack_expo _ (by norm_num) (by norm_num)), if_pos (pack_frac _ (by norm_num) (by norm_num)), pack_neg _ (by norm_num) (by norm_num)]

theorem roundFrac_mul {p a b : Nat} (hb : 0 < b) : roundFrac p (a * b) b = roundFrac p a 1 := by
  unfold roundFrac
  rw [Nat.mul_div_cancel _ hb, Nat.div_one]
  congr 1
  funext n
  have : compare (2 * (a * b)) (n * b) = compare (2 * a) (n * 1) := by
    rw [← mul_assoc, mul_one]
    rcases Nat.lt_trichotomy (2 * a) n with h | h | h
    · rw [Nat.compare_eq_lt.2 h, Nat.compare_eq_lt.2 (Nat.mul_lt_mul_of_pos_right h hb)]
    · rw [h]; simp
    · rw [Nat.compare_eq_gt.2 h, Nat.compare_eq_gt.2 (Nat.mul_lt_mul_of_pos_right h hb)]
  exact this

/-- Numbers that are singles are kept. -/
theorem single_exact (b : BitVec 32) : toDbl (ofDbl (toDbl b)) = toDbl b := by
  by_cases h : expo b = 255
  · have : toDbl b = if frac b = 0 then Dbl.infD (neg b) else Dbl.nanD := by unfold toDbl; rw [if_pos h]
    rw [this]
    split
    · cases neg b <;> decide +kernel
    · decide +kernel
  · obtain ⟨h1, h2, h3⟩ := toDbl_spec h
    rw [ofDbl_fin h1, h2, h3, roundFrac_mul (Nat.two_pow_pos _), roundFrac_exact (by norm_num) (mag_sig b)]
    obtain ⟨k1, k2, k3⟩ := encode_ok (s := neg b) (n := mag b) (by obtain ⟨q, k, a, e⟩ := mag_sig b; exact ⟨q, k, a.le, e⟩) (mag_lt b h)
    have e : ∀ c, expo c ≠ 255 → toDbl c = Dbl.encode (neg c) (mag c * 2 ^ 925) := fun c hc => by unfold toDbl; rw [if_neg hc]
    rw [e _ k1, e _ h, k2, k3]

theorem single_nan {x : Dbl} (h : x.isNaN = true) : toDbl (ofDbl x) = Dbl.nanD := by
  unfold ofDbl
  rw [if_pos h]
  decide +kernel

theorem single_isInf {x : Dbl} (h : x.isInf = true) : toDbl (ofDbl x) = Dbl.infD x.neg := by
  have : x.isNaN = false := by
    simp only [Dbl.isInf, Dbl.isNaN, decide_eq_true_eq, decide_eq_false_iff_not] at *
    tauto
  unfold ofDbl
  rw [this, h]
  simp only [Bool.false_eq_true, if_false, if_true]
  cases x.neg <;> decide +kernel

end Sgl

end SG
