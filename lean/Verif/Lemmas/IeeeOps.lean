import Verif.Lemmas.Ieee
/-! # Operations on IEEE doubles: bit patterns, values, rounding errors -/
set_option linter.unusedSectionVars false
set_option exponentiation.threshold 5000

namespace SG

/-! ## Bit patterns -/

namespace Dbl

theorem pack_toNat (s : Bool) {e f : Nat} (he : e < 2048) (hf : f < 2 ^ 52) :
    (pack s e f).bits.toNat = (if s then 2 ^ 63 else 0) + e * 2 ^ 52 + f := by
  unfold pack
  rw [BitVec.toNat_ofNat, Nat.mod_eq_of_lt]
  split <;> omega

theorem pack_neg (s : Bool) {e f : Nat} (he : e < 2048) (hf : f < 2 ^ 52) : (pack s e f).neg = s := by
  unfold neg
  rw [pack_toNat s he hf]
  cases s <;> simp <;> omega

theorem pack_expo (s : Bool) {e f : Nat} (he : e < 2048) (hf : f < 2 ^ 52) : (pack s e f).expo = e := by
  unfold expo
  rw [pack_toNat s he hf]
  split <;> omega

theorem pack_frac (s : Bool) {e f : Nat} (he : e < 2048) (hf : f < 2 ^ 52) : (pack s e f).frac = f := by
  unfold frac
  rw [pack_toNat s he hf]
  split <;> omega

theorem expo_lt (x : Dbl) : x.expo < 2048 := Nat.mod_lt _ (by norm_num)
theorem frac_lt (x : Dbl) : x.frac < 2 ^ 52 := Nat.mod_lt _ (by norm_num)

theorem pack_self (x : Dbl) : pack x.neg x.expo x.frac = x := by
  have : (pack x.neg x.expo x.frac).bits = x.bits := by
    apply BitVec.eq_of_toNat_eq
    rw [pack_toNat _ x.expo_lt x.frac_lt]
    unfold neg expo frac
    have := x.bits.isLt
    simp only [decide_eq_true_eq]
    split <;> omega
  generalize pack x.neg x.expo x.frac = y at this
  cases x; cases y; simp_all

/-- A double is its three parts. -/
theorem ext_parts {x y : Dbl} (h1 : x.neg = y.neg) (h2 : x.expo = y.expo) (h3 : x.frac = y.frac) : x = y := by
  rw [← pack_self x, ← pack_self y, h1, h2, h3]

theorem isFin_iff {x : Dbl} : x.isFin = true ↔ x.expo < 2047 := by simp [isFin]

theorem fin_not_nan {x : Dbl} (h : x.isFin = true) : x.isNaN = false := by
  rw [isFin_iff] at h
  simp only [isNaN, decide_eq_false_iff_not]; omega

theorem fin_not_inf {x : Dbl} (h : x.isFin = true) : x.isInf = false := by
  rw [isFin_iff] at h
  simp only [isInf, decide_eq_false_iff_not]; omega

theorem fin_of {x : Dbl} (h1 : x.isNaN = false) (h2 : x.isInf = false) : x.isFin = true := by
  rw [isFin_iff]
  simp only [isNaN, isInf, decide_eq_false_iff_not] at h1 h2
  have := x.expo_lt
  by_contra hc
  have he : x.expo = 2047 := by omega
  by_cases hf : x.frac = 0
  · exact h2 ⟨he, hf⟩
  · exact h1 ⟨he, hf⟩

theorem nanD_not_fin : nanD.isFin = false := by decide +kernel
theorem infD_not_fin (s : Bool) : (infD s).isFin = false := by cases s <;> decide +kernel
theorem nanD_isNaN : nanD.isNaN = true := by decide +kernel

theorem mag_lt (x : Dbl) (h : x.isFin = true) : x.mag < 2 ^ 2098 := by
  rw [isFin_iff] at h
  have hf := x.frac_lt
  unfold mag
  split
  · exact hf.trans (Nat.pow_lt_pow_right (by norm_num) (by norm_num))
  · calc (2 ^ 52 + x.frac) * 2 ^ (x.expo - 1) < 2 ^ 53 * 2 ^ (x.expo - 1) :=
          Nat.mul_lt_mul_of_pos_right (by omega) (Nat.two_pow_pos _)
      _ = 2 ^ (53 + (x.expo - 1)) := by rw [pow_add]
      _ ≤ 2 ^ 2098 := Nat.pow_le_pow_right (by norm_num) (by omega)

theorem mag_sig (x : Dbl) : Sig 53 x.mag := by
  have hf := x.frac_lt
  unfold mag
  split
  · exact ⟨x.frac, 0, by omega, by simp⟩
  · exact ⟨_, _, by omega, rfl⟩

section
variable {s : Bool} {n : Nat}

theorem encode_small (h : n < 2 ^ 52) : (encode s n).isFin = true ∧ (encode s n).neg = s ∧ (encode s n).mag = n := by
  unfold encode
  rw [if_pos h]
  refine ⟨?_, pack_neg s (by norm_num) h, ?_⟩
  · rw [isFin_iff, pack_expo s (by norm_num) h]; norm_num
  · unfold mag
    rw [pack_expo s (by norm_num) h, pack_frac s (by norm_num) h, if_pos rfl]

/-- Numbers in range are encoded exactly. -/
theorem encode_ok (h : ∃ q k, q ≤ 2 ^ 53 ∧ n = q * 2 ^ k) (hn : n < 2 ^ 2098) :
    (encode s n).isFin = true ∧ (encode s n).neg = s ∧ (encode s n).mag = n := by
  rcases Nat.lt_or_ge n (2 ^ 52) with hs | hs
  · exact encode_small hs
  · obtain ⟨f, hf, e1, e2⟩ := sig_normal (P := 52) h hs
    have n0 : n ≠ 0 := by omega
    have hl : Nat.log2 n < 2098 := (Nat.log2_lt n0).2 hn
    unfold encode
    rw [if_neg (by omega)]
    simp only
    rw [if_neg (by omega), e2]
    have he : Nat.log2 n - 52 + 1 < 2048 := by omega
    refine ⟨?_, pack_neg s he hf, ?_⟩
    · rw [isFin_iff, pack_expo s he hf]; omega
    · unfold mag
      rw [pack_expo s he hf, pack_frac s he hf, if_neg (by omega), Nat.add_sub_cancel]
      exact e1.symm

/-- If the result is finite, it is exact. -/
theorem encode_fin (h : ∃ q k, q ≤ 2 ^ 53 ∧ n = q * 2 ^ k) (hf : (encode s n).isFin = true) :
    n < 2 ^ 2098 ∧ (encode s n).neg = s ∧ (encode s n).mag = n := by
  by_cases hn : n < 2 ^ 2098
  · exact ⟨hn, (encode_ok h hn).2⟩
  · exfalso
    have n0 : n ≠ 0 := by rintro rfl; exact hn (Nat.two_pow_pos _)
    have hl : ¬ Nat.log2 n < 2098 := fun hl => hn ((Nat.log2_lt n0).1 hl)
    unfold encode at hf
    rw [if_neg (fun h => hn (h.trans (Nat.pow_lt_pow_right (by norm_num) (by norm_num))))] at hf
    simp only at hf
    rw [if_pos (by omega), infD_not_fin] at hf
    exact absurd hf (by decide)

end

/-- Every finite double is what `encode` makes of its parts. -/
theorem encode_self (x : Dbl) (h : x.isFin = true) : encode x.neg x.mag = x := by
  obtain ⟨h1, h2, h3⟩ := encode_ok (s := x.neg) (n := x.mag)
    (by obtain ⟨q, k, a, b⟩ := mag_sig x; exact ⟨q, k, a.le, b⟩) (mag_lt x h)
  generalize encode x.neg x.mag = y at *
  -- equal magnitudes: equal exponents and fractions
  have fx := x.frac_lt
  have fy := y.frac_lt
  have key : ∀ {a b : Dbl}, a.mag = b.mag → a.expo < b.expo → False := by
    intro a b e l
    have fa := a.frac_lt
    have fb := b.frac_lt
    unfold mag at e
    rw [if_neg (show b.expo ≠ 0 by omega)] at e
    split at e
    · have : 1 ≤ 2 ^ (b.expo - 1) := Nat.one_le_two_pow
      nlinarith
    · have h1 : (2 ^ 52 + a.frac) * 2 ^ (a.expo - 1) < 2 ^ 53 * 2 ^ (a.expo - 1) :=
        Nat.mul_lt_mul_of_pos_right (by omega) (Nat.two_pow_pos _)
      have h2 : 2 ^ 53 * 2 ^ (a.expo - 1) ≤ 2 ^ 52 * 2 ^ (b.expo - 1) := by
        rw [← pow_add, ← pow_add]; exact Nat.pow_le_pow_right (by norm_num) (by omega)
      have h3 : 2 ^ 52 * 2 ^ (b.expo - 1) ≤ (2 ^ 52 + b.frac) * 2 ^ (b.expo - 1) := Nat.mul_le_mul_right _ (by omega)
      omega
  have he : y.expo = x.expo := by
    rcases Nat.lt_trichotomy y.expo x.expo with l | l | l
    · exact (key h3 l).elim
    · exact l
    · exact (key h3.symm l).elim
  refine ext_parts h2 he ?_
  unfold mag at h3
  rw [he] at h3
  split at h3
  · exact h3
  · have := Nat.eq_of_mul_eq_mul_right (Nat.two_pow_pos _) h3
    omega

/-! ## Values -/

/-- Units in 1: `2¹⁰⁷⁴`. -/
@[irreducible] noncomputable def U : ℝ := ((2 ^ 1074 : Nat) : ℝ)

theorem U_cast : ((2 ^ 1074 : Nat) : ℝ) = U := by unfold U; rfl
theorem U_eq : U = 2 ^ 1074 := by rw [← U_cast, Nat.cast_pow]; rfl
theorem U_pos : 0 < U := by rw [← U_cast]; exact Nat.cast_pos.2 (Nat.two_pow_pos _)

/-- The real number a finite double stands for. -/
noncomputable def val (x : Dbl) : ℝ := (x.int : ℝ) / U

theorem abs_int (x : Dbl) : |(x.int : ℝ)| = x.mag := by
  unfold int
  split <;> simp

theorem abs_val (x : Dbl) : |x.val| = x.mag / U := by
  unfold val
  rw [abs_div, abs_int, abs_of_pos U_pos]

theorem opp_fin (x : Dbl) : (opp x).isFin = x.isFin := by
  unfold opp isFin
  rw [pack_expo _ x.expo_lt x.frac_lt]

theorem opp_nan (x : Dbl) : (opp x).isNaN = x.isNaN := by
  unfold opp isNaN
  rw [pack_expo _ x.expo_lt x.frac_lt, pack_frac _ x.expo_lt x.frac_lt]

theorem opp_int (x : Dbl) : (opp x).int = -x.int := by
  unfold opp int mag
  rw [pack_expo _ x.expo_lt x.frac_lt, pack_frac _ x.expo_lt x.frac_lt, pack_neg _ x.expo_lt x.frac_lt]
  cases x.neg <;> simp

theorem opp_val (x : Dbl) : (opp x).val = -x.val := by
  unfold val; rw [opp_int]; push_cast; ring

theorem roundFrac_sig (a : Nat) {b : Nat} (hb : 0 < b) : ∃ q k, q ≤ 2 ^ 53 ∧ roundFrac 53 a b = q * 2 ^ k :=
  roundTo_sig (exactly_frac a b hb)

theorem add_fin {x y : Dbl} (hx : x.isFin = true) (hy : y.isFin = true) :
    add x y = encode (if x.int + y.int = 0 then x.neg && y.neg else decide (x.int + y.int < 0)) (roundFrac 53 (x.int + y.int).natAbs 1) := by
  unfold add
  rw [fin_not_nan hx, fin_not_nan hy, fin_not_inf hx, fin_not_inf hy]
  simp only [Bool.or_self, Bool.false_eq_true, if_false]

theorem fin_of_add {x y : Dbl} (h : (add x y).isFin = true) : x.isFin = true ∧ y.isFin = true := by
  unfold add at h
  split at h
  · rw [nanD_not_fin] at h; exact absurd h (by decide)
  · rename_i hn
    simp only [Bool.or_eq_true, not_or, Bool.not_eq_true] at hn
    split at h
    · rename_i hi
      split at h
      · rw [nanD_not_fin] at h; exact absurd h (by decide)
      · rw [fin_not_inf h] at hi; exact absurd hi (by decide)
    · rename_i hi
      split at h
      · rename_i hj
        rw [fin_not_inf h] at hj; exact absurd hj (by decide)
      · rename_i hj
        exact ⟨fin_of hn.1 (by simpa using hi), fin_of hn.2 (by simpa using hj)⟩

/-- A signed value from a rounded magnitude. -/
theorem signed_err {z : Int} {s : Bool} {n : Nat} {δ : ℝ} (hs : z ≠ 0 → s = decide (z < 0)) (hn : z = 0 → n = 0)
    (h : |(n : ℝ) - (z.natAbs : ℝ)| ≤ δ) : |((if s then -(n : Int) else n : Int) : ℝ) - z| ≤ δ := by
  have e : (z.natAbs : ℝ) = |(z : ℝ)| := by
    rw [Nat.cast_natAbs, Int.cast_abs]
  rw [e] at h
  by_cases z0 : z = 0
  · subst z0
    rw [hn rfl] at h ⊢
    simpa using h
  · rw [hs z0]
    by_cases hz : z < 0
    · have hz' : (z : ℝ) < 0 := by exact_mod_cast hz
      rw [abs_of_neg hz'] at h
      simp only [hz, decide_true, if_true]
      push_cast
      rw [← abs_neg]
      convert h using 2
      ring
    · have hz' : (0 : ℝ) ≤ (z : ℝ) := by exact_mod_cast (not_lt.1 hz)
      rw [abs_of_nonneg hz'] at h
      simp only [hz, decide_false]
      exact_mod_cast h

theorem roundFrac_zero {b : Nat} (hb : 0 < b) : roundFrac 53 0 b = 0 := by
  unfold roundFrac roundTo
  rw [Nat.zero_div]
  have : ulpExp 53 0 = 0 := by decide
  rw [this]
  simp only [pow_zero, Nat.div_one, Nat.mul_one, Nat.mul_zero, Nat.zero_add, Nat.one_mul]
  rw [Nat.compare_eq_lt.2 hb]
  rfl

theorem add_err (x y : Dbl) (h : (add x y).isFin = true) :
    x.isFin = true ∧ y.isFin = true ∧ |(add x y).val - (x.val + y.val)| ≤ (2 ^ 53)⁻¹ * |x.val + y.val| := by
  obtain ⟨hx, hy⟩ := fin_of_add h
  refine ⟨hx, hy, ?_⟩
  have e := add_fin hx hy
  rw [e] at h
  generalize hz : x.int + y.int = z at *
  obtain ⟨-, h2, h3⟩ := encode_fin (roundFrac_sig _ one_pos) h
  have hval : (add x y).int = if (if z = 0 then x.neg && y.neg else decide (z < 0)) = true then -(roundFrac 53 z.natAbs 1 : Int)
      else roundFrac 53 z.natAbs 1 := by
    rw [e]; unfold int; rw [h2, h3]
  have hr := roundFrac_one (p := 53) (by norm_num) z.natAbs
  have := signed_err (z := z) (s := if z = 0 then x.neg && y.neg else decide (z < 0)) (fun h0 => by rw [if_neg h0])
    (fun h0 => by rw [h0]; exact roundFrac_zero one_pos) hr
  rw [← hval] at this
  have U0 := U_pos
  have e1 : x.val + y.val = (z : ℝ) / U := by
    unfold val; rw [← hz]; push_cast; ring
  rw [e1]
  unfold val
  rw [← sub_div, abs_div, abs_div, abs_of_pos U0, ← mul_div_assoc]
  gcongr
  rw [Nat.cast_natAbs, Int.cast_abs] at this
  exact this

theorem sub_err (x y : Dbl) (h : (sub x y).isFin = true) :
    x.isFin = true ∧ y.isFin = true ∧ |(sub x y).val - (x.val - y.val)| ≤ (2 ^ 53)⁻¹ * |x.val - y.val| := by
  unfold sub at h ⊢
  split at h
  · rw [nanD_not_fin] at h; exact absurd h (by decide)
  · rename_i hn
    rw [if_neg hn]
    obtain ⟨h1, h2, h3⟩ := add_err _ _ h
    rw [opp_fin] at h2
    rw [opp_val] at h3
    exact ⟨h1, h2, by rwa [← sub_eq_add_neg] at h3⟩

/-- Signs multiply. -/
theorem int_mul (x y : Dbl) : x.int * y.int = if x.neg != y.neg then -((x.mag * y.mag : Nat) : Int) else ((x.mag * y.mag : Nat) : Int) := by
  unfold int
  cases x.neg <;> cases y.neg <;> simp

theorem mul_fin {x y : Dbl} (hx : x.isFin = true) (hy : y.isFin = true) :
    mul x y = encode (x.neg != y.neg) (roundFrac 53 (x.mag * y.mag) (2 ^ 1074)) := by
  unfold mul
  rw [fin_not_nan hx, fin_not_nan hy, fin_not_inf hx, fin_not_inf hy]
  simp only [Bool.or_self, Bool.false_eq_true, if_false]

theorem fin_of_mul {x y : Dbl} (h : (mul x y).isFin = true) : x.isFin = true ∧ y.isFin = true := by
  unfold mul at h
  simp only at h
  split at h
  · rw [nanD_not_fin] at h; exact absurd h (by decide)
  · rename_i hn
    simp only [Bool.or_eq_true, not_or, Bool.not_eq_true] at hn
    split at h
    · split at h
      · rw [nanD_not_fin] at h; exact absurd h (by decide)
      · rw [infD_not_fin] at h; exact absurd h (by decide)
    · rename_i hi
      simp only [Bool.or_eq_true, not_or, Bool.not_eq_true] at hi
      exact ⟨fin_of hn.1 hi.1, fin_of hn.2 hi.2⟩

theorem signed_abs (s : Bool) (a b : ℝ) : |(if s then -a else a) - (if s then -b else b)| = |a - b| := by
  cases s
  · simp
  · simp only [if_true]; rw [← abs_neg]; congr 1; ring

theorem int_cast (x : Dbl) : (x.int : ℝ) = if x.neg then -(x.mag : ℝ) else x.mag := by
  unfold int; split <;> simp

theorem mul_err (x y : Dbl) (h : (mul x y).isFin = true) :
    x.isFin = true ∧ y.isFin = true ∧ |(mul x y).val - x.val * y.val| ≤ (2 ^ 53)⁻¹ * |x.val * y.val| + 1 / 2 / U := by
  obtain ⟨hx, hy⟩ := fin_of_mul h
  refine ⟨hx, hy, ?_⟩
  have e := mul_fin hx hy
  rw [e] at h ⊢
  obtain ⟨-, h2, h3⟩ := encode_fin (roundFrac_sig _ (Nat.two_pow_pos 1074)) h
  have hr := roundTo_rel_abs (p := 53) (by norm_num) (exactly_frac (x.mag * y.mag) (2 ^ 1074) (Nat.two_pow_pos _))
  have e1 : x.val * y.val = (if (x.neg != y.neg) = true then -((x.mag : ℝ) * y.mag / U) else (x.mag : ℝ) * y.mag / U) / U := by
    unfold val
    rw [int_cast, int_cast]
    cases x.neg <;> cases y.neg <;> simp <;> ring
  have e2 : (encode (x.neg != y.neg) (roundFrac 53 (x.mag * y.mag) (2 ^ 1074))).val =
      (if (x.neg != y.neg) = true then -(roundFrac 53 (x.mag * y.mag) (2 ^ 1074) : ℝ) else roundFrac 53 (x.mag * y.mag) (2 ^ 1074)) / U := by
    unfold val; rw [int_cast, h2, h3]
  have e3 : |x.val * y.val| = (x.mag : ℝ) * y.mag / U / U := by
    rw [abs_mul, abs_val, abs_val]; ring
  have U0 := U_pos
  rw [e3, e1, e2, ← sub_div, abs_div, signed_abs, abs_of_pos U0]
  rw [← mul_div_assoc, ← add_div]
  gcongr
  rw [U_cast, Nat.cast_mul] at hr
  exact hr

theorem sqrt_err (x : Dbl) (h : (sqrt x).isFin = true) :
    x.isFin = true ∧ 0 ≤ x.val ∧ |(sqrt x).val - √x.val| ≤ (2 ^ 53)⁻¹ * √x.val := by
  have U0 := U_pos
  unfold sqrt at h ⊢
  split at h
  · rw [nanD_not_fin] at h; exact absurd h (by decide)
  · rename_i hn
    rw [if_neg hn]
    split at h
    · rename_i h0
      rw [if_pos h0]
      have : x.val = 0 := by rw [← abs_eq_zero, abs_val, h0]; simp
      rw [this]
      exact ⟨h, le_refl _, by simp⟩
    · rename_i h0
      rw [if_neg h0]
      split at h
      · rw [nanD_not_fin] at h; exact absurd h (by decide)
      · rename_i hs
        rw [if_neg hs]
        split at h
        · rename_i hi
          rw [fin_not_inf h] at hi; exact absurd hi (by decide)
        · rename_i hi
          rw [if_neg hi]
          have fx := fin_of (by simpa using hn) (by simpa using hi)
          have vx : x.val = x.mag / U := by unfold val; rw [int_cast, if_neg hs]
          refine ⟨fx, by rw [vx]; exact div_nonneg (Nat.cast_nonneg _) U0.le, ?_⟩
          have hex := exactly_sqrt (x.mag * 2 ^ 1074)
          obtain ⟨-, h2, h3⟩ := encode_fin (roundTo_sig hex) h
          have big : 2 ^ 1074 ≤ x.mag * 2 ^ 1074 := Nat.le_mul_of_pos_left _ (Nat.pos_of_ne_zero h0)
          have hk : 0 < ulpExp 53 (isqrt (x.mag * 2 ^ 1074)) := by
            have hq := isqrt_spec (x.mag * 2 ^ 1074)
            generalize isqrt (x.mag * 2 ^ 1074) = w at *
            have hw : 2 ^ 537 ≤ w := by
              by_contra hc
              have : (w + 1) * (w + 1) ≤ 2 ^ 537 * 2 ^ 537 := Nat.mul_le_mul (by omega) (by omega)
              rw [← pow_add] at this
              omega
            have : 537 ≤ Nat.log2 w := (Nat.le_log2 (by rintro rfl; simp at hw)).2 hw
            unfold ulpExp; omega
          have hr := roundTo_rel (p := 53) (by norm_num) hex hk
          have sq : √x.val = √((x.mag * 2 ^ 1074 : Nat) : ℝ) / U := by
            rw [vx]
            have : (x.mag : ℝ) / U = ((x.mag * 2 ^ 1074 : Nat) : ℝ) / (U * U) := by
              rw [Nat.cast_mul, U_cast]; field_simp
            rw [this, Real.sqrt_div (Nat.cast_nonneg _), Real.sqrt_mul_self U0.le]
          rw [sq]
          unfold val roundSqrt
          rw [int_cast, h2, h3, if_neg (by decide), ← sub_div, abs_div, abs_of_pos U0, ← mul_div_assoc]
          gcongr

/-! ## Results that stay in range -/

/-- A magnitude up to `2¹⁰²³` does not overflow. -/
theorem round_in_range {r : ℝ} {fl : Nat} {cmp : Nat → Ordering} (h : Exactly r fl cmp) (hr : r ≤ ((2 ^ 2097 : Nat) : ℝ)) :
    roundTo 53 fl cmp < 2 ^ 2098 := by
  have e := (abs_le.1 (roundTo_rel_abs (p := 53) (by norm_num) h)).2
  have r0 : 0 ≤ r := (Nat.cast_nonneg fl).trans h.lo
  have h1 : (roundTo 53 fl cmp : ℝ) < ((2 ^ 2098 : Nat) : ℝ) := by
    have two : ((2 ^ 2098 : Nat) : ℝ) = ((2 ^ 2097 : Nat) : ℝ) * 2 := by rw [pow_succ 2 2097, Nat.cast_mul]; norm_cast
    have big : (1 : ℝ) ≤ ((2 ^ 2097 : Nat) : ℝ) := by exact_mod_cast Nat.one_le_two_pow
    rw [two]
    generalize ((2 ^ 2097 : Nat) : ℝ) = B at *
    have k : ((2 : ℝ) ^ 53)⁻¹ ≤ 1 / 4 := by norm_num
    have : ((2 : ℝ) ^ 53)⁻¹ * r ≤ 1 / 4 * B := mul_le_mul k hr r0 (by norm_num)
    linarith
  exact_mod_cast h1

/-- `2¹⁰²³` -/
@[irreducible] noncomputable def top : ℝ := ((2 ^ 1023 : Nat) : ℝ)
theorem top_cast : ((2 ^ 1023 : Nat) : ℝ) = top := by unfold top; rfl
theorem top_mul : top * U = ((2 ^ 2097 : Nat) : ℝ) := by
  rw [← top_cast, ← U_cast, ← Nat.cast_mul, ← pow_add]
theorem top_big (n : Nat) (h : n ≤ 1023) : (2 : ℝ) ^ n ≤ top := by
  rw [← top_cast, Nat.cast_pow]
  exact pow_le_pow_right₀ (by norm_num) h

theorem fin_add {x y : Dbl} (hx : x.isFin = true) (hy : y.isFin = true) (h : |x.val + y.val| ≤ top) : (add x y).isFin = true := by
  rw [add_fin hx hy]
  refine (encode_ok (roundFrac_sig _ one_pos) ?_).1
  refine round_in_range (exactly_frac _ 1 one_pos) ?_
  have U0 := U_pos
  have e1 : x.val + y.val = ((x.int + y.int : Int) : ℝ) / U := by unfold val; push_cast; ring
  rw [e1, abs_div, abs_of_pos U0, div_le_iff₀ U0, top_mul] at h
  rw [Nat.cast_one, div_one, Nat.cast_natAbs, Int.cast_abs]
  exact h

theorem fin_sub {x y : Dbl} (hx : x.isFin = true) (hy : y.isFin = true) (h : |x.val - y.val| ≤ top) : (sub x y).isFin = true := by
  unfold sub
  rw [fin_not_nan hy]
  simp only [Bool.false_eq_true, if_false]
  refine fin_add hx (by rwa [opp_fin]) ?_
  rwa [opp_val, ← sub_eq_add_neg]

theorem fin_mul {x y : Dbl} (hx : x.isFin = true) (hy : y.isFin = true) (h : |x.val * y.val| ≤ top) : (mul x y).isFin = true := by
  rw [mul_fin hx hy]
  refine (encode_ok (roundFrac_sig _ (Nat.two_pow_pos _)) ?_).1
  refine round_in_range (exactly_frac _ _ (Nat.two_pow_pos _)) ?_
  have U0 := U_pos
  rw [abs_mul, abs_val, abs_val] at h
  rw [U_cast, Nat.cast_mul, ← top_mul]
  calc (x.mag : ℝ) * y.mag / U = (x.mag / U * (y.mag / U)) * U := by field_simp
    _ ≤ top * U := by gcongr

theorem fin_sqrt {x : Dbl} (hx : x.isFin = true) (h : 0 ≤ x.val) : (sqrt x).isFin = true := by
  have U0 := U_pos
  unfold sqrt
  rw [fin_not_nan hx]
  simp only [Bool.false_eq_true, if_false]
  split
  · exact hx
  · rename_i h0
    have hn : x.neg = false := by
      by_contra hc
      have hc : x.neg = true := by simpa using hc
      unfold val at h
      rw [int_cast, if_pos hc] at h
      have m0 : (0 : ℝ) < x.mag := by exact_mod_cast Nat.pos_of_ne_zero h0
      have : -(x.mag : ℝ) / U < 0 := div_neg_of_neg_of_pos (by linarith) U0
      linarith
    rw [hn, fin_not_inf hx]
    simp only [Bool.false_eq_true, if_false]
    have hex := exactly_sqrt (x.mag * 2 ^ 1074)
    refine (encode_ok (roundTo_sig hex) ?_).1
    refine round_in_range hex ?_
    refine Real.sqrt_le_iff.2 ⟨Nat.cast_nonneg _, ?_⟩
    have h1 := mag_lt x hx
    have : x.mag * 2 ^ 1074 ≤ (2 ^ 2097) ^ 2 := by
      rw [← pow_mul]
      calc x.mag * 2 ^ 1074 ≤ 2 ^ 2098 * 2 ^ 1074 := Nat.mul_le_mul_right _ h1.le
        _ = 2 ^ (2098 + 1074) := by rw [← pow_add]
        _ ≤ 2 ^ (2097 * 2) := Nat.pow_le_pow_right (by norm_num) (by norm_num)
    exact_mod_cast this

/-! ## Division -/

theorem div_fin {x y : Dbl} (hx : x.isFin = true) (hy : y.isFin = true) (h0 : y.mag ≠ 0) :
    div x y = encode (x.neg != y.neg) (roundFrac 53 (x.mag * 2 ^ 1074) y.mag) := by
  unfold div
  rw [fin_not_nan hx, fin_not_nan hy, fin_not_inf hx, fin_not_inf hy]
  simp only [Bool.or_self, Bool.false_eq_true, if_false, if_neg h0]

theorem div_err {x y : Dbl} (hx : x.isFin = true) (hy : y.isFin = true) (h0 : y.mag ≠ 0) (h : (div x y).isFin = true) :
    |(div x y).val - x.val / y.val| ≤ (2 ^ 53)⁻¹ * |x.val / y.val| + 1 / 2 / U := by
  have U0 := U_pos
  have m0 : (0 : ℝ) < y.mag := by exact_mod_cast Nat.pos_of_ne_zero h0
  have e := div_fin hx hy h0
  rw [e] at h ⊢
  obtain ⟨-, h2, h3⟩ := encode_fin (roundFrac_sig _ (Nat.pos_of_ne_zero h0)) h
  have hr := roundTo_rel_abs (p := 53) (by norm_num) (exactly_frac (x.mag * 2 ^ 1074) y.mag (Nat.pos_of_ne_zero h0))
  have e1 : x.val / y.val = (if (x.neg != y.neg) = true then -((x.mag : ℝ) * U / y.mag) else (x.mag : ℝ) * U / y.mag) / U := by
    unfold val
    rw [int_cast, int_cast]
    cases x.neg <;> cases y.neg <;> simp <;> field_simp
  have e3 : |x.val / y.val| = (x.mag : ℝ) * U / y.mag / U := by
    rw [abs_div, abs_val, abs_val]; field_simp
  have e2 : (encode (x.neg != y.neg) (roundFrac 53 (x.mag * 2 ^ 1074) y.mag)).val =
      (if (x.neg != y.neg) = true then -(roundFrac 53 (x.mag * 2 ^ 1074) y.mag : ℝ) else roundFrac 53 (x.mag * 2 ^ 1074) y.mag) / U := by
    unfold val; rw [int_cast, h2, h3]
  rw [e3, e1, e2, ← sub_div, abs_div, signed_abs, abs_of_pos U0, ← mul_div_assoc, ← add_div]
  gcongr
  rw [Nat.cast_mul, U_cast] at hr
  exact hr

/-! ## Order -/

theorem lt_iff {x y : Dbl} : lt x y = true ↔ x.isNaN = false ∧ y.isNaN = false ∧ x.int < y.int := by
  simp [lt, and_assoc]

theorem le_iff {x y : Dbl} : le x y = true ↔ x.isNaN = false ∧ y.isNaN = false ∧ x.int ≤ y.int := by
  simp [le, and_assoc]

theorem lt_val {x y : Dbl} (hx : x.isNaN = false) (hy : y.isNaN = false) : lt x y = true ↔ x.val < y.val := by
  rw [lt_iff, val, val, div_lt_div_iff_of_pos_right U_pos, Int.cast_lt]
  simp [hx, hy]

theorem le_val {x y : Dbl} (hx : x.isNaN = false) (hy : y.isNaN = false) : le x y = true ↔ x.val ≤ y.val := by
  rw [le_iff, val, val, div_le_div_iff_of_pos_right U_pos, Int.cast_le]
  simp [hx, hy]

/-- Literals are rounded like everything else. -/
theorem lit_pow (k : Nat) (h : k ≤ 1000) : (lit (2 ^ k) 1).isFin = true ∧ (lit (2 ^ k) 1).val = 2 ^ k := by
  unfold lit
  have hs : Sig 53 (2 ^ k * 2 ^ 1074) := ⟨1, k + 1074, by norm_num, by rw [pow_add, Nat.one_mul]⟩
  rw [roundFrac_exact (by norm_num) hs]
  obtain ⟨h1, h2, h3⟩ := encode_ok (s := false) (n := 2 ^ k * 2 ^ 1074)
    (by obtain ⟨q, j, a, b⟩ := hs; exact ⟨q, j, a.le, b⟩) (by
      rw [← pow_add]; exact Nat.pow_lt_pow_right (by norm_num) (by omega))
  refine ⟨h1, ?_⟩
  unfold val
  rw [int_cast, h2, h3, if_neg (by decide), Nat.cast_mul, U_cast, mul_div_assoc, div_self U_pos.ne', mul_one]
  push_cast; rfl

end Dbl

end SG
