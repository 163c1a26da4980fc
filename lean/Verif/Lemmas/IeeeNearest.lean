import Verif.Lemmas.IeeeOps
/-! # The operations return the double nearest to the exact result -/
set_option linter.unusedSectionVars false
set_option exponentiation.threshold 5000

namespace SG

/-! ## Rounding is to the nearest number -/

/-- No number with `p` significant bits is nearer to `r` than the rounded one. -/
theorem roundTo_nearest {p fl : Nat} {cmp : Nat → Ordering} {r : ℝ} (hp : 0 < p) (h : Exactly r fl cmp) {n : Nat} (hn : Sig p n) :
    |(roundTo p fl cmp : ℝ) - r| ≤ |(n : ℝ) - r| := by
  obtain ⟨h1, h2⟩ := quot_bounds h (ulpExp p fl)
  have key : n ≤ fl / 2 ^ ulpExp p fl * 2 ^ ulpExp p fl ∨ (fl / 2 ^ ulpExp p fl + 1) * 2 ^ ulpExp p fl ≤ n := by
    rcases Nat.lt_or_ge (fl / 2 ^ ulpExp p fl * 2 ^ ulpExp p fl) n with hlt | hge
    · right
      rcases Nat.eq_zero_or_pos (ulpExp p fl) with hk | hk
      · rw [hk] at hlt ⊢; simpa using hlt
      · -- `n` is so large that it is a multiple of the step
        have hb := ulp_pos_bound hp hk
        obtain ⟨q, j, hq, e⟩ := hn
        generalize hk' : ulpExp p fl = k at *
        have k0 := Nat.two_pow_pos k
        have hfl : 2 ^ (p - 1) * 2 ^ k ≤ fl := by
          have : 2 ^ (p + k) = 2 * (2 ^ (p - 1) * 2 ^ k) := by
            rw [← pow_add, ← pow_succ']; congr 1; omega
          omega
        have hq1 : 2 ^ (p - 1) ≤ fl / 2 ^ k := (Nat.le_div_iff_mul_le k0).2 hfl
        have hnb : 2 ^ (p - 1) * 2 ^ k < n := lt_of_le_of_lt (Nat.mul_le_mul_right _ hq1) hlt
        have hj : k ≤ j := by
          by_contra hc
          have a1 : n < 2 ^ (p + j) := by rw [e, pow_add]; exact Nat.mul_lt_mul_of_pos_right hq (Nat.two_pow_pos j)
          have a2 : 2 ^ (p + j) ≤ 2 ^ (p - 1 + k) := Nat.pow_le_pow_right (by norm_num) (by omega)
          rw [pow_add 2 (p - 1)] at a2
          omega
        have hd : 2 ^ k ∣ n := by rw [e]; exact (pow_dvd_pow 2 hj).mul_left q
        obtain ⟨c, hc⟩ := hd
        rw [hc, mul_comm (2 ^ k) c] at hlt ⊢
        exact Nat.mul_le_mul_right _ (Nat.lt_of_mul_lt_mul_right hlt)
    · left; exact hge
  have cases := roundTo_cases (p := p) h
  generalize ulpExp p fl = k at *
  generalize fl / 2 ^ k = q at *
  rcases key with hle | hge
  · have e1 : (n : ℝ) ≤ q * 2 ^ k := by exact_mod_cast hle
    rw [abs_sub_comm (n : ℝ), abs_of_nonneg (show 0 ≤ r - n by linarith)]
    rcases cases with ⟨e, a, -⟩ | ⟨e, a, -⟩
    · rw [e]; push_cast; rw [abs_le]; constructor <;> nlinarith
    · rw [e]; push_cast; rw [abs_le]; constructor <;> nlinarith
  · have e1 : ((q : ℝ) + 1) * 2 ^ k ≤ n := by exact_mod_cast hge
    rw [abs_of_nonneg (show 0 ≤ (n : ℝ) - r by linarith)]
    rcases cases with ⟨e, a, -⟩ | ⟨e, a, -⟩
    · rw [e]; push_cast; rw [abs_le]; constructor <;> nlinarith
    · rw [e]; push_cast; rw [abs_le]; constructor <;> nlinarith

namespace Dbl

theorem scale_abs (m a : ℝ) : |m / U - a| * U = |m - a * U| := by
  have U0 := U_pos
  nth_rewrite 2 [← abs_of_pos U0]
  rw [← abs_mul, sub_mul, div_mul_cancel₀ _ U0.ne']

theorem nearest_of {s : ℝ} {fl : Nat} {cmp : Nat → Ordering} (h : Exactly (|s| * U) fl cmp) {t : Dbl} (hm : t.mag = roundTo 53 fl cmp)
    (hs : s ≠ 0 → t.neg = decide (s < 0)) (z : Dbl) : |t.val - s| ≤ |z.val - s| := by
  have U0 := U_pos
  have hn := roundTo_nearest (p := 53) (by norm_num) h (mag_sig z)
  rw [← hm] at hn
  have hz : |(z.mag : ℝ) - |s| * U| = abs (|z.val| - |s|) * U := by
    rw [abs_val]; exact (scale_abs _ _).symm
  have hz' : abs (|z.val| - |s|) ≤ |z.val - s| := abs_abs_sub_abs_le _ _
  have ht : |t.val - s| * U = |(t.mag : ℝ) - |s| * U| := by
    have e : |t.val - s| = abs (|t.val| - |s|) := by
      by_cases h0 : s = 0
      · rw [h0]; simp
      · have hneg := hs h0
        unfold val
        rw [int_cast, hneg]
        rcases lt_or_gt_of_ne h0 with hl | hg
        · rw [if_pos (by simpa using hl), abs_of_neg hl, neg_div, abs_neg, abs_of_nonneg (div_nonneg (Nat.cast_nonneg _) U0.le), ← abs_neg]
          congr 1; ring
        · rw [if_neg (by simpa using hg.le), abs_of_pos hg, abs_of_nonneg (div_nonneg (Nat.cast_nonneg _) U0.le)]
    rw [e, abs_val]; exact scale_abs _ _
  refine le_of_mul_le_mul_right ?_ U0
  rw [ht]
  refine hn.trans ?_
  rw [hz]
  exact mul_le_mul_of_nonneg_right hz' U0.le

/-- No finite double is nearer to `x + y` than the computed sum, unless it overflows. -/
theorem add_nearest {x y : Dbl} (h : (add x y).isFin = true) (z : Dbl) : |(add x y).val - (x.val + y.val)| ≤ |z.val - (x.val + y.val)| := by
  obtain ⟨hx, hy⟩ := fin_of_add h
  have U0 := U_pos
  have e := add_fin hx hy
  have ev : x.val + y.val = ((x.int + y.int : Int) : ℝ) / U := by unfold val; push_cast; ring
  rw [e] at h ⊢
  rw [ev]
  generalize x.int + y.int = w at *
  obtain ⟨-, h2, h3⟩ := encode_fin (roundFrac_sig _ one_pos) h
  have hex := exactly_frac w.natAbs 1 one_pos
  refine nearest_of (fl := w.natAbs / 1) (cmp := fun n => compare (2 * w.natAbs) (n * 1)) ?_ h3 ?_ z
  · convert hex using 1
    rw [abs_div, abs_of_pos U0, div_mul_cancel₀ _ U0.ne', Nat.cast_natAbs, Int.cast_abs]; simp
  · intro h0
    have w0 : w ≠ 0 := by rintro rfl; simp at h0
    rw [h2, if_neg w0, decide_eq_decide, div_lt_iff₀ U0, zero_mul]
    exact (Int.cast_lt_zero (R := ℝ)).symm

theorem sub_nearest {x y : Dbl} (h : (sub x y).isFin = true) (z : Dbl) : |(sub x y).val - (x.val - y.val)| ≤ |z.val - (x.val - y.val)| := by
  unfold sub at h ⊢
  split at h
  · rw [nanD_not_fin] at h; exact absurd h (by decide)
  · rename_i hn
    rw [if_neg hn]
    have := add_nearest h z
    rwa [opp_val, ← sub_eq_add_neg] at this

theorem val_sign (x : Dbl) : x.val = (if x.neg then -1 else 1) * (x.mag / U) := by
  unfold val; rw [int_cast]; split <;> ring

theorem mul_nearest {x y : Dbl} (h : (mul x y).isFin = true) (z : Dbl) : |(mul x y).val - x.val * y.val| ≤ |z.val - x.val * y.val| := by
  obtain ⟨hx, hy⟩ := fin_of_mul h
  have U0 := U_pos
  rw [mul_fin hx hy] at h ⊢
  obtain ⟨-, h2, h3⟩ := encode_fin (roundFrac_sig _ (Nat.two_pow_pos _)) h
  refine nearest_of (fl := x.mag * y.mag / 2 ^ 1074) (cmp := fun n => compare (2 * (x.mag * y.mag)) (n * 2 ^ 1074)) ?_ h3 ?_ z
  · convert exactly_frac (x.mag * y.mag) (2 ^ 1074) (Nat.two_pow_pos _) using 1
    rw [abs_mul, abs_val, abs_val, U_cast, Nat.cast_mul]; field_simp
  · intro h0
    rw [h2]
    rw [val_sign x, val_sign y] at h0 ⊢
    have p : 0 < (x.mag : ℝ) / U * (y.mag / U) := by
      refine lt_of_le_of_ne (mul_nonneg (div_nonneg (Nat.cast_nonneg _) U0.le) (div_nonneg (Nat.cast_nonneg _) U0.le)) fun hc => h0 ?_
      rw [mul_mul_mul_comm, ← hc, mul_zero]
    rw [mul_mul_mul_comm]
    generalize (x.mag : ℝ) / U * (y.mag / U) = w at *
    cases x.neg <;> cases y.neg <;> simp [p, p.le]

theorem div_nearest {x y : Dbl} (hx : x.isFin = true) (hy : y.isFin = true) (hy0 : y.mag ≠ 0) (h : (div x y).isFin = true) (z : Dbl) :
    |(div x y).val - x.val / y.val| ≤ |z.val - x.val / y.val| := by
  have U0 := U_pos
  have m0 : (0 : ℝ) < y.mag := by exact_mod_cast Nat.pos_of_ne_zero hy0
  rw [div_fin hx hy hy0] at h ⊢
  obtain ⟨-, h2, h3⟩ := encode_fin (roundFrac_sig _ (Nat.pos_of_ne_zero hy0)) h
  refine nearest_of (fl := x.mag * 2 ^ 1074 / y.mag) (cmp := fun n => compare (2 * (x.mag * 2 ^ 1074)) (n * y.mag)) ?_ h3 ?_ z
  · convert exactly_frac (x.mag * 2 ^ 1074) y.mag (Nat.pos_of_ne_zero hy0) using 1
    rw [abs_div, abs_val, abs_val, Nat.cast_mul, U_cast]; field_simp
  · intro h0
    rw [h2]
    rw [val_sign x, val_sign y, mul_div_mul_comm] at h0 ⊢
    have p : 0 < (x.mag : ℝ) / U / (y.mag / U) := by
      refine lt_of_le_of_ne (div_nonneg (div_nonneg (Nat.cast_nonneg _) U0.le) (div_nonneg (Nat.cast_nonneg _) U0.le)) fun hc => h0 ?_
      rw [← hc, mul_zero]
    generalize (x.mag : ℝ) / U / (y.mag / U) = w at *
    cases x.neg <;> cases y.neg <;> simp [p, p.le]

theorem sqrt_nearest {x : Dbl} (h : (sqrt x).isFin = true) (z : Dbl) : |(sqrt x).val - √x.val| ≤ |z.val - √x.val| := by
  have U0 := U_pos
  unfold sqrt at h ⊢
  split at h
  · rw [nanD_not_fin] at h; exact absurd h (by decide)
  · rename_i hn
    rw [if_neg hn]
    split at h
    · rename_i h0
      rw [if_pos h0]
      have : x.val = 0 := by rw [← abs_eq_zero, abs_val, h0]; simp
      rw [this]
      simp
    · rename_i h0
      rw [if_neg h0]
      split at h
      · rw [nanD_not_fin] at h; exact absurd h (by decide)
      · rename_i hs
        rw [if_neg hs]
        split at h
        · rename_i hi
          rw [fin_not_inf h] at hi; exact absurd hi (by decide)
        · rename_i hi
          rw [if_neg hi]
          have vx : x.val = x.mag / U := by unfold val; rw [int_cast, if_neg hs]
          have hex := exactly_sqrt (x.mag * 2 ^ 1074)
          obtain ⟨-, h2, h3⟩ := encode_fin (roundTo_sig hex) h
          have sq : √x.val = √((x.mag * 2 ^ 1074 : Nat) : ℝ) / U := by
            rw [vx]
            have : (x.mag : ℝ) / U = ((x.mag * 2 ^ 1074 : Nat) : ℝ) / (U * U) := by
              rw [Nat.cast_mul, U_cast]; field_simp
            rw [this, Real.sqrt_div (Nat.cast_nonneg _), Real.sqrt_mul_self U0.le]
          refine nearest_of (fl := isqrt (x.mag * 2 ^ 1074)) (cmp := fun m => compare (4 * (x.mag * 2 ^ 1074)) (m * m)) ?_ h3 ?_ z
          · rw [sq, abs_of_nonneg (div_nonneg (Real.sqrt_nonneg _) U0.le), div_mul_cancel₀ _ U0.ne']
            exact hex
          · intro _
            rw [h2]
            simp

/-- A double of at least `2 ^ (e + 52 - 1074)` is a multiple of `2 ^ (e - 1074)`. -/
theorem grid_of {x : Dbl} {e : Nat} (he : e ≤ 1074) (h1 : ((2 ^ (52 + e) : Nat) : ℝ) ≤ |x.val| * U) : ∃ n : Nat, |x.val| = n / 2 ^ (1074 - e) := by
  have U0 := U_pos
  obtain ⟨q, k, hq, em⟩ := mag_sig x
  rw [abs_val, div_mul_cancel₀ _ U0.ne'] at h1
  have hm : 2 ^ (52 + e) ≤ x.mag := by exact_mod_cast h1
  have hk : e ≤ k := by
    by_contra hc
    have a : q * 2 ^ k < 2 ^ (52 + e) := by
      calc q * 2 ^ k < 2 ^ 53 * 2 ^ k := Nat.mul_lt_mul_of_pos_right hq (Nat.two_pow_pos _)
        _ = 2 ^ (53 + k) := by rw [pow_add]
        _ ≤ _ := Nat.pow_le_pow_right (by norm_num) (by omega)
    omega
  refine ⟨q * 2 ^ (k - e), ?_⟩
  obtain ⟨j, rfl⟩ := Nat.exists_eq_add_of_le hk
  obtain ⟨f, hf⟩ := Nat.exists_eq_add_of_le he
  rw [abs_val, em, Nat.add_sub_cancel_left]
  have hU : U = ((2 ^ e : Nat) : ℝ) * ((2 ^ (1074 - e) : Nat) : ℝ) := by
    rw [← Nat.cast_mul, ← pow_add, ← U_cast, Nat.add_sub_cancel' he]
  have hp : ((2 ^ (1074 - e) : Nat) : ℝ) = 2 ^ (1074 - e) := by rw [Nat.cast_pow]; rfl
  rw [hU, ← hp, pow_add, ← mul_assoc, mul_right_comm, Nat.cast_mul _ (2 ^ e)]
  have p1 : (0 : ℝ) < ((2 ^ e : Nat) : ℝ) := Nat.cast_pos.2 (Nat.two_pow_pos _)
  have p2 : (0 : ℝ) < ((2 ^ (1074 - e) : Nat) : ℝ) := Nat.cast_pos.2 (Nat.two_pow_pos _)
  generalize ((2 ^ e : Nat) : ℝ) = a at *
  generalize ((2 ^ (1074 - e) : Nat) : ℝ) = b at *
  generalize ((q * 2 ^ j : Nat) : ℝ) = c
  field_simp

/-- A double of at least 256 is a multiple of `2⁻⁴⁴`. -/
theorem grid_256 {x : Dbl} (h1 : 256 ≤ |x.val|) : ∃ n : Nat, |x.val| = n / 2 ^ 44 := by
  refine grid_of (e := 1030) (by norm_num) ?_
  have : ((2 ^ (52 + 1030) : Nat) : ℝ) = 256 * U := by
    rw [← U_cast, show (52 + 1030 : Nat) = 1074 + 8 by norm_num, pow_add, Nat.cast_mul, mul_comm]; norm_num
  rw [this]
  exact mul_le_mul_of_nonneg_right h1 U_pos.le

/-- A double of at least 1/2 is a multiple of `2⁻⁵³`. -/
theorem grid_half {x : Dbl} (h1 : 1 / 2 ≤ |x.val|) : ∃ n : Nat, |x.val| = n / 2 ^ 53 := by
  refine grid_of (e := 1021) (by norm_num) ?_
  have : ((2 ^ (52 + 1021) : Nat) : ℝ) = 1 / 2 * U := by
    rw [← U_cast, show (1074 : Nat) = 52 + 1021 + 1 by norm_num, pow_succ _ (52 + 1021), Nat.cast_mul]
    generalize ((2 ^ (52 + 1021) : Nat) : ℝ) = a
    push_cast; ring
  rw [this]
  exact mul_le_mul_of_nonneg_right h1 U_pos.le

/-- Finite doubles other than zero are determined by their value. -/
theorem eq_of_val {x y : Dbl} (hx : x.isFin = true) (hy : y.isFin = true) (h : x.val = y.val) (h0 : x.val ≠ 0) : x = y := by
  have U0 := U_pos
  have m : x.mag = y.mag := by
    have := congrArg abs h
    rw [abs_val, abs_val, div_left_inj' U0.ne'] at this
    exact_mod_cast this
  have sg : ∀ z : Dbl, z.val ≠ 0 → z.neg = decide (z.val < 0) := by
    intro z hz
    rw [val_sign] at hz ⊢
    have p : 0 < (z.mag : ℝ) / U := by
      refine lt_of_le_of_ne (div_nonneg (Nat.cast_nonneg _) U0.le) fun hc => hz ?_
      rw [← hc, mul_zero]
    generalize (z.mag : ℝ) / U = w at *
    cases z.neg <;> simp [p, p.le]
  rw [← encode_self x hx, ← encode_self y hy, m, sg x h0, sg y (h ▸ h0), h]

end Dbl
end SG
