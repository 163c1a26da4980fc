import Verif.Lemmas.IeeeDivision
/-! # Doubles as decimals with 13 digits -/
set_option linter.unusedSectionVars false
set_option exponentiation.threshold 5000

namespace SG
namespace Dbl

theorem log10Go_spec : ∀ (k n : Nat), 0 < n → n < 10 ^ (k + 1) → 10 ^ log10Go k n ≤ n ∧ n < 10 ^ (log10Go k n + 1)
  | 0, n, h0, h => by simp only [log10Go]; simp at h ⊢; omega
  | k + 1, n, h0, h => by
    unfold log10Go
    split
    · rename_i h'; simp; omega
    · rename_i h'
      have e : 10 ^ (k + 1 + 1) = 10 * 10 ^ (k + 1) := by rw [pow_succ]; ring
      obtain ⟨a, b⟩ := log10Go_spec k (n / 10) (by omega) (by omega)
      have e1 : 10 ^ (log10Go k (n / 10) + 1) = 10 * 10 ^ log10Go k (n / 10) := by rw [pow_succ]; ring
      have e2 : 10 ^ (log10Go k (n / 10) + 1 + 1) = 10 * 10 ^ (log10Go k (n / 10) + 1) := by rw [pow_succ _ (log10Go k (n / 10) + 1)]; ring
      omega

theorem log10_spec {n : Nat} (h : 0 < n) : 10 ^ log10 n ≤ n ∧ n < 10 ^ (log10 n + 1) := by
  refine log10Go_spec _ n h ?_
  calc n < 2 ^ (Nat.log2 n + 1) := (Nat.log2_lt h.ne').1 (Nat.lt_succ_self _)
    _ ≤ 2 ^ (Nat.log2 n + 1 + 1) := Nat.pow_le_pow_right (by norm_num) (by omega)
    _ ≤ 10 ^ (Nat.log2 n + 1 + 1) := Nat.pow_le_pow_left (by norm_num) _

theorem roundNat_err (a : Nat) {b : Nat} (hb : 0 < b) : |(roundNat a b : ℝ) - a / b| ≤ 1 / 2 := by
  have b0 : (0 : ℝ) < b := by exact_mod_cast hb
  have hm := Nat.div_add_mod a b
  have ha : (a : ℝ) = b * (a / b : Nat) + (a % b : Nat) := by exact_mod_cast hm.symm
  have hlt := Nat.mod_lt a hb
  have r1 : ((a % b : Nat) : ℝ) < b := by exact_mod_cast hlt
  have r0 : (0 : ℝ) ≤ ((a % b : Nat) : ℝ) := Nat.cast_nonneg _
  unfold roundNat
  generalize hq : a / b = q at *
  generalize hr : a % b = r at *
  have up : |((q + 1 : Nat) : ℝ) - a / b| ≤ 1 / 2 ↔ (b : ℝ) ≤ 2 * r := by
    have e : ((q + 1 : Nat) : ℝ) - a / b = (b - r) / b := by rw [ha]; push_cast; field_simp; ring
    rw [e, abs_of_nonneg (div_nonneg (by linarith) b0.le), div_le_iff₀ b0]
    constructor <;> intro h <;> linarith
  have dn : |(q : ℝ) - a / b| ≤ 1 / 2 ↔ (2 * r : ℝ) ≤ b := by
    have e : (q : ℝ) - a / b = -(r / b) := by rw [ha]; field_simp; ring
    rw [e, abs_neg, abs_of_nonneg (div_nonneg r0 b0.le), div_le_iff₀ b0]
    constructor <;> intro h <;> linarith
  cases hc : compare (2 * r) b with
  | lt =>
    have := Nat.compare_eq_lt.1 hc
    simp only [roundQ]
    rw [dn]; exact_mod_cast this.le
  | eq =>
    have := Nat.compare_eq_eq.1 hc
    have e : (2 * r : ℝ) = b := by exact_mod_cast this
    simp only [roundQ]
    split
    · rw [dn]; exact e.le
    · rw [up]; exact e.ge
  | gt =>
    have := Nat.compare_eq_gt.1 hc
    simp only [roundQ]
    rw [up]; exact_mod_cast this.le

theorem roundNat_exact (c : Nat) {b : Nat} (hb : 0 < b) : roundNat (c * b) b = c := by
  unfold roundNat
  rw [Nat.mul_div_cancel _ hb, Nat.mul_mod_left, Nat.mul_zero, Nat.compare_eq_lt.2 hb]
  rfl

/-- What the 13 digits are. -/
theorem decimal_spec {m : Nat} (h0 : m ≠ 0) (hm : m ≤ (2 ^ 53 - 1) * 2 ^ 2045) :
    10 ^ 12 ≤ (decimal m).1 ∧ (decimal m).1 < 10 ^ 13 ∧ 12 ≤ (decimal m).2 ∧ (decimal m).2 ≤ 709 ∧
    |((decimal m).1 : ℝ) * 10 ^ ((decimal m).2 - 12) - m * 10 ^ 400 / U| ≤ (10 ^ 12)⁻¹ / 2 * (m * 10 ^ 400 / U) ∧
    (∀ c j : Nat, c < 10 ^ 13 → (m : ℝ) * 10 ^ 400 / U = c * 10 ^ j → ((decimal m).1 : ℝ) * 10 ^ ((decimal m).2 - 12) = m * 10 ^ 400 / U) ∧
    ((decimal m).1 : ℝ) * 10 ^ ((decimal m).2 - 12) / 10 ^ 400 * U ≤ (((2 ^ 53 - 1) * 2 ^ 2045 : Nat) : ℝ) := by
  have U0 := U_pos
  have hT : 0 < 2 ^ 1074 := Nat.two_pow_pos _
  have n0 : 10 ^ 13 ≤ m * 10 ^ 400 / 2 ^ 1074 := by
    calc 10 ^ 13 ≤ 10 ^ 400 / 2 ^ 1074 := by decide +kernel
      _ ≤ _ := Nat.div_le_div_right (Nat.le_mul_of_pos_left _ (Nat.pos_of_ne_zero h0))
  obtain ⟨l1, l2⟩ := log10_spec (lt_of_lt_of_le (by norm_num) n0)
  have hL12 : 12 ≤ log10 (m * 10 ^ 400 / 2 ^ 1074) := by
    by_contra hc
    have := Nat.pow_le_pow_right (n := 10) (by norm_num) (show log10 (m * 10 ^ 400 / 2 ^ 1074) + 1 ≤ 12 by omega)
    have : 10 ^ 12 < 10 ^ 13 := by norm_num
    omega
  have hL708 : log10 (m * 10 ^ 400 / 2 ^ 1074) ≤ 708 := by
    by_contra hc
    have h1 := Nat.pow_le_pow_right (n := 10) (by norm_num) (show 709 ≤ log10 (m * 10 ^ 400 / 2 ^ 1074) by omega)
    have h2 : m * 10 ^ 400 / 2 ^ 1074 ≤ (2 ^ 53 - 1) * 2 ^ 2045 * 10 ^ 400 / 2 ^ 1074 := Nat.div_le_div_right (Nat.mul_le_mul_right _ hm)
    have h3 : (2 ^ 53 - 1) * 2 ^ 2045 * 10 ^ 400 / 2 ^ 1074 < 10 ^ 709 := by decide +kernel
    omega
  have dec : decimal m = if roundNat (m * 10 ^ 400) (2 ^ 1074 * 10 ^ (log10 (m * 10 ^ 400 / 2 ^ 1074) - 12)) = 10 ^ 13
      then (10 ^ 12, log10 (m * 10 ^ 400 / 2 ^ 1074) + 1)
      else (roundNat (m * 10 ^ 400) (2 ^ 1074 * 10 ^ (log10 (m * 10 ^ 400 / 2 ^ 1074) - 12)), log10 (m * 10 ^ 400 / 2 ^ 1074)) := by
    unfold decimal; rw [if_neg h0]
  have l1' : 10 ^ log10 (m * 10 ^ 400 / 2 ^ 1074) * 2 ^ 1074 ≤ m * 10 ^ 400 := (Nat.le_div_iff_mul_le hT).1 l1
  have l2' : m * 10 ^ 400 < 10 ^ (log10 (m * 10 ^ 400 / 2 ^ 1074) + 1) * 2 ^ 1074 := (Nat.div_lt_iff_lt_mul hT).1 l2
  clear l1 l2 n0
  generalize log10 (m * 10 ^ 400 / 2 ^ 1074) = L at *
  have bpos : 0 < 2 ^ 1074 * 10 ^ (L - 12) := Nat.mul_pos hT (Nat.pow_pos (by norm_num))
  have err := roundNat_err (m * 10 ^ 400) bpos
  have ex := fun c => roundNat_exact c bpos
  have cast1 : ((m * 10 ^ 400 : Nat) : ℝ) = m * 10 ^ 400 := by generalize 400 = k; push_cast; rfl
  have cast2 : ((2 ^ 1074 * 10 ^ (L - 12) : Nat) : ℝ) = U * 10 ^ (L - 12) := by rw [Nat.cast_mul, U_cast]; push_cast; rfl
  have l1r : (10 : ℝ) ^ L * U ≤ m * 10 ^ 400 := by
    have : ((10 ^ L * 2 ^ 1074 : Nat) : ℝ) ≤ ((m * 10 ^ 400 : Nat) : ℝ) := Nat.cast_le.2 l1'
    rw [cast1, Nat.cast_mul, U_cast] at this
    push_cast at this; exact this
  have l2r : (m : ℝ) * 10 ^ 400 < 10 ^ (L + 1) * U := by
    have : ((m * 10 ^ 400 : Nat) : ℝ) < ((10 ^ (L + 1) * 2 ^ 1074 : Nat) : ℝ) := Nat.cast_lt.2 l2'
    rw [cast1, Nat.cast_mul, U_cast] at this
    push_cast at this; exact this
  rw [cast1, cast2] at err
  -- scale by the power of ten
  have P0 : (0 : ℝ) < 10 ^ (L - 12) := by positivity
  have hP : (10 : ℝ) ^ L = 10 ^ 12 * 10 ^ (L - 12) := by rw [← pow_add]; congr 1; omega
  have hP1 : (10 : ℝ) ^ (L + 1) = 10 ^ 13 * 10 ^ (L - 12) := by rw [← pow_add]; congr 1; omega
  set R : ℝ := m * 10 ^ 400 / U with hR
  have hx : (m : ℝ) * 10 ^ 400 / (U * 10 ^ (L - 12)) = R / 10 ^ (L - 12) := by rw [hR]; field_simp
  rw [hx] at err
  have R1 : 10 ^ 12 * 10 ^ (L - 12) ≤ R := by rw [← hP, hR, le_div_iff₀ U0]; exact l1r
  have R2 : R < 10 ^ 13 * 10 ^ (L - 12) := by rw [← hP1, hR, div_lt_iff₀ U0]; exact l2r
  have x1 : (10 : ℝ) ^ 12 ≤ R / 10 ^ (L - 12) := (le_div_iff₀ P0).2 R1
  have x2 : R / 10 ^ (L - 12) < 10 ^ 13 := (div_lt_iff₀ P0).2 R2
  have hq1 : 10 ^ 12 ≤ roundNat (m * 10 ^ 400) (2 ^ 1074 * 10 ^ (L - 12)) := by
    have := (abs_le.1 err).1
    have h : ((10 ^ 12 : Nat) : ℝ) < ((roundNat (m * 10 ^ 400) (2 ^ 1074 * 10 ^ (L - 12)) + 1 : Nat) : ℝ) := by
      push_cast; linarith
    have := Nat.cast_lt.1 h
    omega
  have hq2 : roundNat (m * 10 ^ 400) (2 ^ 1074 * 10 ^ (L - 12)) ≤ 10 ^ 13 := by
    have := (abs_le.1 err).2
    have h : ((roundNat (m * 10 ^ 400) (2 ^ 1074 * 10 ^ (L - 12)) : Nat) : ℝ) < ((10 ^ 13 + 1 : Nat) : ℝ) := by
      push_cast; linarith
    have := Nat.cast_lt.1 h
    omega
  have hmul : ∀ q : ℝ, |q - R / 10 ^ (L - 12)| ≤ 1 / 2 → |q * 10 ^ (L - 12) - R| ≤ (10 ^ 12)⁻¹ / 2 * R := by
    intro q h
    have e : q * 10 ^ (L - 12) - R = (q - R / 10 ^ (L - 12)) * 10 ^ (L - 12) := by field_simp
    rw [e, abs_mul, abs_of_pos P0]
    calc |q - R / 10 ^ (L - 12)| * 10 ^ (L - 12) ≤ 1 / 2 * 10 ^ (L - 12) := mul_le_mul_of_nonneg_right h P0.le
      _ = (10 ^ 12)⁻¹ / 2 * (10 ^ 12 * 10 ^ (L - 12)) := by field_simp
      _ ≤ _ := by gcongr
  have hexact : ∀ c j : Nat, c < 10 ^ 13 → R = c * 10 ^ j →
      ((roundNat (m * 10 ^ 400) (2 ^ 1074 * 10 ^ (L - 12)) : Nat) : ℝ) * 10 ^ (L - 12) = R := by
    intro c j hc e
    have hj : L - 12 ≤ j := by
      by_contra hlt
      have hle : j + 1 ≤ L - 12 := by omega
      have : (10 : ℝ) ^ (j + 1) ≤ 10 ^ (L - 12) := pow_le_pow_right₀ (by norm_num) hle
      have c1 : (c : ℝ) < 10 ^ 13 := by exact_mod_cast hc
      have j0 : (0 : ℝ) < 10 ^ j := by positivity
      have : R < 10 ^ 12 * 10 ^ (j + 1) := by
        rw [e, pow_succ]
        calc (c : ℝ) * 10 ^ j < 10 ^ 13 * 10 ^ j := mul_lt_mul_of_pos_right c1 j0
          _ = _ := by ring
      have : (10 : ℝ) ^ 12 * 10 ^ (j + 1) ≤ 10 ^ 12 * 10 ^ (L - 12) := by gcongr
      linarith
    obtain ⟨i, rfl⟩ := Nat.exists_eq_add_of_le hj
    have hn : m * 10 ^ 400 = c * 10 ^ i * (2 ^ 1074 * 10 ^ (L - 12)) := by
      have : ((m * 10 ^ 400 : Nat) : ℝ) = ((c * 10 ^ i * (2 ^ 1074 * 10 ^ (L - 12)) : Nat) : ℝ) := by
        rw [cast1, Nat.cast_mul (c * 10 ^ i), cast2]
        rw [hR, div_eq_iff U0.ne'] at e
        rw [e]; push_cast; rw [pow_add]; ring
      exact Nat.cast_injective this
    rw [hn, ex]
    rw [e]; push_cast; rw [pow_add]; ring
  have hmax : ((roundNat (m * 10 ^ 400) (2 ^ 1074 * 10 ^ (L - 12)) : Nat) : ℝ) * 10 ^ (L - 12) / 10 ^ 400 * U ≤ (((2 ^ 53 - 1) * 2 ^ 2045 : Nat) : ℝ) := by
    have red : ∀ q k : Nat, q * 10 ^ k * 2 ^ 1074 ≤ (2 ^ 53 - 1) * 2 ^ 2045 * 10 ^ 400 →
        (q : ℝ) * 10 ^ k / 10 ^ 400 * U ≤ (((2 ^ 53 - 1) * 2 ^ 2045 : Nat) : ℝ) := by
      intro q k h
      have h' : ((q * 10 ^ k * 2 ^ 1074 : Nat) : ℝ) ≤ (((2 ^ 53 - 1) * 2 ^ 2045 * 10 ^ 400 : Nat) : ℝ) := Nat.cast_le.2 h
      rw [Nat.cast_mul, U_cast, Nat.cast_mul ((2 ^ 53 - 1) * 2 ^ 2045)] at h'
      generalize (((2 ^ 53 - 1) * 2 ^ 2045 : Nat) : ℝ) = M at h' ⊢
      have c4 : ((10 ^ 400 : Nat) : ℝ) = 10 ^ 400 := by generalize 400 = k; push_cast; rfl
      rw [c4] at h'
      push_cast at h'
      rw [div_mul_eq_mul_div, div_le_iff₀ (pow_pos (by norm_num) _)]
      exact h'
    apply red
    rcases Nat.lt_or_ge L 708 with hl | hl
    · calc roundNat (m * 10 ^ 400) (2 ^ 1074 * 10 ^ (L - 12)) * 10 ^ (L - 12) * 2 ^ 1074 ≤ 10 ^ 13 * 10 ^ 695 * 2 ^ 1074 := by
            refine Nat.mul_le_mul_right _ (Nat.mul_le_mul hq2 (Nat.pow_le_pow_right (by norm_num) (by omega)))
        _ ≤ _ := by decide +kernel
    · have hL : L = 708 := by omega
      subst hL
      have hb : R / 10 ^ (708 - 12) ≤ 1797693134862 + 2 / 5 := by
        have hle : m * 10 ^ 400 * 5 ≤ (1797693134862 * 5 + 2) * (2 ^ 1074 * 10 ^ (708 - 12)) := by
          refine le_trans (Nat.mul_le_mul_right _ (Nat.mul_le_mul_right _ hm)) ?_
          decide +kernel
        have hle' : ((m * 10 ^ 400 * 5 : Nat) : ℝ) ≤ (((1797693134862 * 5 + 2) * (2 ^ 1074 * 10 ^ (708 - 12)) : Nat) : ℝ) := Nat.cast_le.2 hle
        rw [Nat.cast_mul _ 5, cast1, Nat.cast_mul (1797693134862 * 5 + 2), cast2] at hle'
        rw [← hx, div_le_iff₀ (mul_pos U0 P0)]
        generalize U * 10 ^ (708 - 12) = w at *
        generalize (m : ℝ) * 10 ^ 400 = v at *
        push_cast at hle'
        linarith
      have hq : roundNat (m * 10 ^ 400) (2 ^ 1074 * 10 ^ (708 - 12)) ≤ 1797693134862 := by
        have := (abs_le.1 err).2
        have h : ((roundNat (m * 10 ^ 400) (2 ^ 1074 * 10 ^ (708 - 12)) : Nat) : ℝ) < ((1797693134862 + 1 : Nat) : ℝ) := by
          push_cast; linarith
        have := Nat.cast_lt.1 h
        omega
      refine le_trans (Nat.mul_le_mul_right _ (Nat.mul_le_mul_right _ hq)) ?_
      decide +kernel
  have err' := hmul _ err
  rw [dec]
  generalize roundNat (m * 10 ^ 400) (2 ^ 1074 * 10 ^ (L - 12)) = q at *
  clear l1' l2' dec ex
  by_cases hc : q = 10 ^ 13
  · rw [if_pos hc]
    have e : (((10 ^ 12, L + 1) : Nat × Nat).1 : ℝ) * 10 ^ (((10 ^ 12, L + 1) : Nat × Nat).2 - 12) = q * 10 ^ (L - 12) := by
      rw [hc]
      show ((10 ^ 12 : Nat) : ℝ) * 10 ^ (L + 1 - 12) = _
      rw [show L + 1 - 12 = (L - 12) + 1 by omega, pow_succ]; push_cast; ring
    rw [e]
    exact ⟨le_refl _, by show 10 ^ 12 < 10 ^ 13; norm_num, by show 12 ≤ L + 1; omega, by show L + 1 ≤ 709; omega, err', hexact, hmax⟩
  · rw [if_neg hc]
    exact ⟨hq1, by show q < 10 ^ 13; omega, hL12, by show L ≤ 709; omega, err', hexact, hmax⟩

/-- Largest finite magnitude. -/
theorem mag_le {x : Dbl} (h : x.isFin = true) : x.mag ≤ (2 ^ 53 - 1) * 2 ^ 2045 := by
  have he := isFin_iff.1 h
  have hf := x.frac_lt
  unfold mag
  split
  · calc x.frac ≤ (2 ^ 53 - 1) * 1 := by omega
      _ ≤ _ := Nat.mul_le_mul_left _ Nat.one_le_two_pow
  · exact Nat.mul_le_mul (by omega) (Nat.pow_le_pow_right (by norm_num) (by omega))

theorem max_sig : Sig 53 ((2 ^ 53 - 1) * 2 ^ 2045) := ⟨2 ^ 53 - 1, 2045, by norm_num, rfl⟩

/-- A number that is at most the largest double does not overflow. -/
theorem round_in_range' {r : ℝ} {fl : Nat} {cmp : Nat → Ordering} (h : Exactly r fl cmp) (hr : r ≤ (((2 ^ 53 - 1) * 2 ^ 2045 : Nat) : ℝ)) :
    roundTo 53 fl cmp < 2 ^ 2098 := by
  have hn := roundTo_nearest (p := 53) (by norm_num) h max_sig
  have hlt : (2 ^ 53 - 1) * 2 ^ 2045 < 2 ^ 2098 := by
    rw [show (2 : Nat) ^ 2098 = 2 ^ 53 * 2 ^ 2045 by rw [← pow_add]]
    exact Nat.mul_lt_mul_of_pos_right (by norm_num) (Nat.two_pow_pos _)
  refine lt_of_le_of_lt ?_ hlt
  have : (roundTo 53 fl cmp : ℝ) ≤ (((2 ^ 53 - 1) * 2 ^ 2045 : Nat) : ℝ) := by
    generalize (((2 ^ 53 - 1) * 2 ^ 2045 : Nat) : ℝ) = M at hn hr ⊢
    rw [abs_of_nonneg (show 0 ≤ M - r by linarith)] at hn
    have := (abs_le.1 hn).2
    linarith
  exact Nat.cast_le.1 this

/-- `float()` of a decimal gives a nearest double. -/
theorem ofDecimal_spec (s : Bool) {q L : Nat} (h12 : 12 ≤ L) (hmax : (q : ℝ) * 10 ^ (L - 12) / 10 ^ 400 * U ≤ (((2 ^ 53 - 1) * 2 ^ 2045 : Nat) : ℝ)) :
    (ofDecimal s q ((L : Int) - 412)).isFin = true ∧ (ofDecimal s q ((L : Int) - 412)).neg = s ∧
    (∀ z : Dbl, |((ofDecimal s q ((L : Int) - 412)).mag : ℝ) - (q : ℝ) * 10 ^ (L - 12) / 10 ^ 400 * U| ≤ |(z.mag : ℝ) - (q : ℝ) * 10 ^ (L - 12) / 10 ^ 400 * U|) ∧
    |((ofDecimal s q ((L : Int) - 412)).mag : ℝ) - (q : ℝ) * 10 ^ (L - 12) / 10 ^ 400 * U| ≤ (2 ^ 53)⁻¹ * ((q : ℝ) * 10 ^ (L - 12) / 10 ^ 400 * U) + 1 / 2 := by
  have hb : 0 < 10 ^ (-((L : Int) - 412)).toNat := Nat.pow_pos (by norm_num)
  have hex := exactly_frac (q * 10 ^ ((L : Int) - 412).toNat * 2 ^ 1074) _ hb
  have hr : ((q * 10 ^ ((L : Int) - 412).toNat * 2 ^ 1074 : Nat) : ℝ) / ((10 ^ (-((L : Int) - 412)).toNat : Nat) : ℝ) =
      (q : ℝ) * 10 ^ (L - 12) / 10 ^ 400 * U := by
    rw [Nat.cast_mul, U_cast, Nat.cast_mul]
    have c : ∀ k : Nat, ((10 ^ k : Nat) : ℝ) = 10 ^ k := fun k => by push_cast; rfl
    rw [c, c]
    rcases Nat.le_total 412 L with h | h
    · have e1 : ((L : Int) - 412).toNat = L - 412 := by omega
      have e2 : (-((L : Int) - 412)).toNat = 0 := by omega
      have e3 : (10 : ℝ) ^ (L - 12) = 10 ^ (L - 412) * 10 ^ 400 := by rw [← pow_add]; congr 1; omega
      have p : (10 : ℝ) ^ 400 ≠ 0 := pow_ne_zero _ (by norm_num)
      rw [e1, e2, e3]
      generalize (10 : ℝ) ^ 400 = w at *
      generalize (10 : ℝ) ^ (L - 412) = v at *
      rw [pow_zero]; field_simp
    · have e1 : ((L : Int) - 412).toNat = 0 := by omega
      have e2 : (-((L : Int) - 412)).toNat = 412 - L := by omega
      have e3 : (10 : ℝ) ^ 400 = 10 ^ (412 - L) * 10 ^ (L - 12) := by rw [← pow_add]; congr 1; omega
      have p : (10 : ℝ) ^ (412 - L) ≠ 0 := pow_ne_zero _ (by norm_num)
      have p' : (10 : ℝ) ^ (L - 12) ≠ 0 := pow_ne_zero _ (by norm_num)
      rw [e1, e2, e3]
      generalize (10 : ℝ) ^ (412 - L) = w at *
      generalize (10 : ℝ) ^ (L - 12) = v at *
      rw [pow_zero]; field_simp
  rw [hr] at hex
  have hrange := round_in_range' hex hmax
  obtain ⟨f, n, e⟩ := encode_ok (s := s) (roundTo_sig hex) hrange
  have near := fun z : Dbl => roundTo_nearest (p := 53) (by norm_num) hex (mag_sig z)
  have rel := roundTo_rel_abs (p := 53) (by norm_num) hex
  rw [← e] at near rel
  exact ⟨f, n, near, rel⟩

/-- What comes back of a double printed with 13 digits. -/
def reread (t : Dbl) : Dbl := ofDecimal t.neg (decimal t.mag).1 (((decimal t.mag).2 : Int) - 412)

theorem reread_zero {t : Dbl} (h : t.mag = 0) : reread t = encode t.neg 0 := by
  unfold reread ofDecimal
  rw [h]
  have : decimal 0 = (0, 400) := if_pos rfl
  rw [this]
  dsimp only
  rw [Nat.zero_mul, Nat.zero_mul, roundFrac_zero (Nat.pow_pos (by norm_num))]

theorem reread_spec {t : Dbl} (ht : t.isFin = true) :
    (reread t).isFin = true ∧ (reread t).neg = t.neg ∧ |(reread t).val - t.val| ≤ (10 ^ 12)⁻¹ * |t.val| ∧
    (∀ c j : Nat, c < 10 ^ 13 → |t.val| * 10 ^ 400 = c * 10 ^ j → reread t = t) := by
  have U0 := U_pos
  by_cases h0 : t.mag = 0
  · have z := reread_zero h0
    have e : reread t = t := by rw [z, ← h0, encode_self t ht]
    rw [e]
    exact ⟨ht, rfl, by rw [sub_self, abs_zero]; positivity, fun _ _ _ _ => rfl⟩
  · obtain ⟨-, -, h12, -, err, hex, hmax⟩ := decimal_spec h0 (mag_le ht)
    obtain ⟨f, n, near, -⟩ := ofDecimal_spec t.neg h12 hmax
    change (reread t).isFin = true at f
    change (reread t).neg = t.neg at n
    have near := near t
    change |((reread t).mag : ℝ) - _| ≤ _ at near
    set d : ℝ := ((decimal t.mag).1 : ℝ) * 10 ^ ((decimal t.mag).2 - 12) with hd
    have p4 : (0 : ℝ) < 10 ^ 400 := pow_pos (by norm_num) _
    have key : |(reread t).val - t.val| = |((reread t).mag : ℝ) - t.mag| / U := by
      rw [val_sign, val_sign t, n, ← mul_sub, ← sub_div, abs_mul, abs_div, abs_of_pos U0]
      cases t.neg <;> simp
    have hdm : |(t.mag : ℝ) - d / 10 ^ 400 * U| = |d - t.mag * 10 ^ 400 / U| / 10 ^ 400 * U := by
      have e : (t.mag : ℝ) - d / 10 ^ 400 * U = -((d - t.mag * 10 ^ 400 / U) / 10 ^ 400 * U) := by
        generalize (10 : ℝ) ^ 400 = w at *
        field_simp; ring
      rw [e, abs_neg, abs_mul, abs_div, abs_of_pos U0, abs_of_pos p4]
    refine ⟨f, n, ?_, fun c j hc e => ?_⟩
    · rw [key, abs_val, div_le_iff₀ U0]
      have tri : |((reread t).mag : ℝ) - t.mag| ≤ |((reread t).mag : ℝ) - d / 10 ^ 400 * U| + |(t.mag : ℝ) - d / 10 ^ 400 * U| := by
        rw [abs_sub_comm (t.mag : ℝ)]
        exact abs_sub_le _ _ _
      have b : |(t.mag : ℝ) - d / 10 ^ 400 * U| ≤ (10 ^ 12)⁻¹ / 2 * (t.mag : ℝ) := by
        rw [hdm]
        generalize (10 : ℝ) ^ 400 = w at *
        calc |d - t.mag * w / U| / w * U ≤ ((10 ^ 12)⁻¹ / 2 * (t.mag * w / U)) / w * U := by gcongr
          _ = _ := by field_simp
      have e : (10 ^ 12)⁻¹ * ((t.mag : ℝ) / U) * U = (10 ^ 12)⁻¹ * t.mag := by field_simp
      rw [e]
      linarith
    · rw [abs_val, div_mul_eq_mul_div] at e
      have h := hex c j hc e
      have z : |d - t.mag * 10 ^ 400 / U| = 0 := by rw [h, sub_self, abs_zero]
      rw [hdm, z, zero_div, zero_mul] at near
      have near' := abs_eq_zero.1 (le_antisymm near (abs_nonneg _))
      have hdt : d / 10 ^ 400 * U = t.mag := by
        rw [h]
        generalize (10 : ℝ) ^ 400 = w at *
        field_simp
      rw [hdt] at near'
      have hm : (reread t).mag = t.mag := by
        have : ((reread t).mag : ℝ) = t.mag := by linarith
        exact_mod_cast this
      rw [← encode_self _ f, n, hm, encode_self t ht]

theorem unique_core {q L K r : Nat} {R : ℝ} (hq1 : 10 ^ 12 ≤ q) (hq2 : q < 10 ^ 13) (hL : 12 ≤ L) (hL12 : 12 ≤ K)
    (h : |(q : ℝ) * 10 ^ (L - 12) - R| ≤ 1 / 40 * 10 ^ (L - 12)) (err : |(r : ℝ) - R / 10 ^ (K - 12)| ≤ 1 / 2)
    (l1r : (10 : ℝ) ^ K ≤ R) (l2r : R < 10 ^ (K + 1)) :
    (if r = 10 ^ 13 then (10 ^ 12, K + 1) else (r, K)) = (q, L) := by
  have hK : (10 : ℝ) ^ K = 10 ^ 12 * 10 ^ (K - 12) := by rw [← pow_add]; congr 1; omega
  have hK1 : (10 : ℝ) ^ (K + 1) = 10 ^ 13 * 10 ^ (K - 12) := by rw [← pow_add]; congr 1; omega
  have P0 : (0 : ℝ) < 10 ^ (L - 12) := by positivity
  have Q0 : (0 : ℝ) < 10 ^ (K - 12) := by positivity
  obtain ⟨a, b⟩ := abs_le.1 h
  have q1 : (10 : ℝ) ^ 12 ≤ q := by exact_mod_cast hq1
  have q2 : (q : ℝ) + 1 ≤ 10 ^ 13 := by exact_mod_cast hq2
  have c1 : (10 : ℝ) ^ 12 * 10 ^ (L - 12) ≤ q * 10 ^ (L - 12) := by gcongr
  have c2 : ((q : ℝ) + 1) * 10 ^ (L - 12) ≤ 10 ^ 13 * 10 ^ (L - 12) := by gcongr
  have hKL : K ≤ L := by
    by_contra hc
    have : (10 : ℝ) ^ (L - 12 + 1) ≤ 10 ^ (K - 12) := pow_le_pow_right₀ (by norm_num) (by omega)
    rw [pow_succ] at this
    rw [hK] at l1r
    nlinarith
  have hLK : L ≤ K + 1 := by
    by_contra hc
    have : (10 : ℝ) ^ (K - 12 + 2) ≤ 10 ^ (L - 12) := pow_le_pow_right₀ (by norm_num) (by omega)
    rw [pow_add] at this
    rw [hK1] at l2r
    nlinarith
  rcases Nat.eq_or_lt_of_le hKL with he | hlt
  · subst he
    have hr : r = q := by
      have e1 : |(r : ℝ) - q| < 1 := by
        have : |R / 10 ^ (K - 12) - q| ≤ 1 / 40 := by
          have e : R / 10 ^ (K - 12) - q = -((q * 10 ^ (K - 12) - R) / 10 ^ (K - 12)) := by field_simp; ring
          rw [e, abs_neg, abs_div, abs_of_pos P0, div_le_iff₀ P0]
          exact h
        have t := abs_sub_le (r : ℝ) (R / 10 ^ (K - 12)) q
        linarith
      have e2 : |((r : Int) - (q : Int) : ℝ)| < 1 := by simpa using e1
      have e3 : |(r : Int) - (q : Int)| < 1 := by exact_mod_cast e2
      have := Int.abs_lt_one_iff.1 e3
      omega
    rw [hr, if_neg (by omega)]
  · have hL' : L = K + 1 := by omega
    subst hL'
    have e : (10 : ℝ) ^ (K + 1 - 12) = 10 * 10 ^ (K - 12) := by rw [show K + 1 - 12 = K - 12 + 1 by omega, pow_succ]; ring
    rw [e] at a b c1 c2
    rw [hK1] at l2r
    have hq : q = 10 ^ 12 := by
      have : (q : ℝ) < 10 ^ 12 + 1 := by nlinarith
      have : q < 10 ^ 12 + 1 := by exact_mod_cast this
      omega
    have hr : r = 10 ^ 13 := by
      obtain ⟨a', b'⟩ := abs_le.1 err
      have x1 : R / 10 ^ (K - 12) < 10 ^ 13 := (div_lt_iff₀ Q0).2 l2r
      have x2 : 10 ^ 13 - 1 / 4 ≤ R / 10 ^ (K - 12) := by
        rw [le_div_iff₀ Q0]; nlinarith
      have y1 : (r : ℝ) < ((10 ^ 13 + 1 : Nat) : ℝ) := by push_cast; linarith
      have y2 : ((10 ^ 13 : Nat) : ℝ) < ((r + 1 : Nat) : ℝ) := by push_cast; linarith
      have := Nat.cast_lt.1 y1
      have := Nat.cast_lt.1 y2
      omega
    rw [if_pos hr, hq]

/-- Nearby numbers have the same 13 digits. -/
theorem decimal_unique {m q L : Nat} (h0 : m ≠ 0) (hq1 : 10 ^ 12 ≤ q) (hq2 : q < 10 ^ 13) (hL : 12 ≤ L)
    (h : |(q : ℝ) * 10 ^ (L - 12) - m * 10 ^ 400 / U| ≤ 1 / 40 * 10 ^ (L - 12)) : decimal m = (q, L) := by
  have U0 := U_pos
  have hT : 0 < 2 ^ 1074 := Nat.two_pow_pos _
  have n0 : 10 ^ 13 ≤ m * 10 ^ 400 / 2 ^ 1074 := by
    calc 10 ^ 13 ≤ 10 ^ 400 / 2 ^ 1074 := by decide +kernel
      _ ≤ _ := Nat.div_le_div_right (Nat.le_mul_of_pos_left _ (Nat.pos_of_ne_zero h0))
  obtain ⟨l1, l2⟩ := log10_spec (lt_of_lt_of_le (by norm_num) n0)
  have hL12 : 12 ≤ log10 (m * 10 ^ 400 / 2 ^ 1074) := by
    by_contra hc
    have := Nat.pow_le_pow_right (n := 10) (by norm_num) (show log10 (m * 10 ^ 400 / 2 ^ 1074) + 1 ≤ 12 by omega)
    have : 10 ^ 12 < 10 ^ 13 := by norm_num
    omega
  have dec : decimal m = if roundNat (m * 10 ^ 400) (2 ^ 1074 * 10 ^ (log10 (m * 10 ^ 400 / 2 ^ 1074) - 12)) = 10 ^ 13
      then (10 ^ 12, log10 (m * 10 ^ 400 / 2 ^ 1074) + 1)
      else (roundNat (m * 10 ^ 400) (2 ^ 1074 * 10 ^ (log10 (m * 10 ^ 400 / 2 ^ 1074) - 12)), log10 (m * 10 ^ 400 / 2 ^ 1074)) := by
    unfold decimal; rw [if_neg h0]
  have l1' : 10 ^ log10 (m * 10 ^ 400 / 2 ^ 1074) * 2 ^ 1074 ≤ m * 10 ^ 400 := (Nat.le_div_iff_mul_le hT).1 l1
  have l2' : m * 10 ^ 400 < 10 ^ (log10 (m * 10 ^ 400 / 2 ^ 1074) + 1) * 2 ^ 1074 := (Nat.div_lt_iff_lt_mul hT).1 l2
  clear l1 l2 n0
  rw [dec]
  generalize log10 (m * 10 ^ 400 / 2 ^ 1074) = K at *
  clear dec
  have bpos : 0 < 2 ^ 1074 * 10 ^ (K - 12) := Nat.mul_pos hT (Nat.pow_pos (by norm_num))
  have err := roundNat_err (m * 10 ^ 400) bpos
  have cast1 : ((m * 10 ^ 400 : Nat) : ℝ) = m * 10 ^ 400 := by generalize 400 = k; push_cast; rfl
  have cast2 : ((2 ^ 1074 * 10 ^ (K - 12) : Nat) : ℝ) = U * 10 ^ (K - 12) := by rw [Nat.cast_mul, U_cast]; push_cast; rfl
  have l1r : (10 : ℝ) ^ K * U ≤ m * 10 ^ 400 := by
    have : ((10 ^ K * 2 ^ 1074 : Nat) : ℝ) ≤ ((m * 10 ^ 400 : Nat) : ℝ) := Nat.cast_le.2 l1'
    rw [cast1, Nat.cast_mul, U_cast] at this
    push_cast at this; exact this
  have l2r : (m : ℝ) * 10 ^ 400 < 10 ^ (K + 1) * U := by
    have : ((m * 10 ^ 400 : Nat) : ℝ) < ((10 ^ (K + 1) * 2 ^ 1074 : Nat) : ℝ) := Nat.cast_lt.2 l2'
    rw [cast1, Nat.cast_mul, U_cast] at this
    push_cast at this; exact this
  rw [cast1, cast2] at err
  generalize roundNat (m * 10 ^ 400) (2 ^ 1074 * 10 ^ (K - 12)) = r at *
  clear l1' l2' cast1 cast2 bpos
  have hx : (m : ℝ) * 10 ^ 400 / (U * 10 ^ (K - 12)) = m * 10 ^ 400 / U / 10 ^ (K - 12) := by rw [div_div]
  rw [hx] at err
  rw [← le_div_iff₀ U0] at l1r
  rw [← div_lt_iff₀ U0] at l2r
  exact unique_core hq1 hq2 hL hL12 h err l1r l2r

/-- Printing what was read gives the same digits again, unless the number is so small that it has few digits. -/
theorem decimal_reread {t : Dbl} (ht : t.isFin = true) (h : t.mag = 0 ∨ (2 ^ 1000)⁻¹ ≤ |t.val|) : decimal (reread t).mag = decimal t.mag := by
  have U0 := U_pos
  rcases h with h0 | hbig
  · rw [reread_zero h0, ← h0, encode_self t ht]
  · have h0 : t.mag ≠ 0 := by
      intro h0
      rw [abs_val, h0] at hbig
      have : (0 : ℝ) < (2 ^ 1000)⁻¹ := inv_pos.2 (pow_pos (by norm_num) _)
      simp at hbig
      linarith
    obtain ⟨hq1, hq2, h12, -, err, -, hmax⟩ := decimal_spec h0 (mag_le ht)
    obtain ⟨f, n, -, rel⟩ := ofDecimal_spec t.neg h12 hmax
    change |((reread t).mag : ℝ) - _| ≤ _ at rel
    have p4 : (0 : ℝ) < 10 ^ 400 := pow_pos (by norm_num) _
    have big : (2 : ℝ) ^ 70 ≤ t.mag := by
      rw [abs_val, le_div_iff₀ U0, U_eq] at hbig
      refine le_trans ?_ hbig
      rw [show (2 : ℝ) ^ 1074 = 2 ^ 1000 * 2 ^ 74 by rw [← pow_add]]
      have p : (0 : ℝ) < 2 ^ 1000 := pow_pos (by norm_num) _
      generalize (2 : ℝ) ^ 1000 = w at *
      rw [inv_mul_cancel_left₀ p.ne']; norm_num
    have P0 : (0 : ℝ) < 10 ^ ((decimal t.mag).2 - 12) := by positivity
    have q2 : ((decimal t.mag).1 : ℝ) ≤ 10 ^ 13 := by exact_mod_cast hq2.le
    generalize hk : (decimal t.mag).2 - 12 = k at *
    set d : ℝ := ((decimal t.mag).1 : ℝ) * 10 ^ k with hd
    have hdq : d ≤ 10 ^ 13 * 10 ^ k := by rw [hd]; gcongr
    -- the decimal is large, too
    have dbig : 1 ≤ (2 ^ 53)⁻¹ * (d / 10 ^ 400 * U) := by
      have := (abs_le.1 err).1
      have e : (t.mag : ℝ) * 10 ^ 400 / U * (1 - (10 ^ 12)⁻¹ / 2) ≤ d := by linarith
      have e2 : (t.mag : ℝ) / 2 ≤ d / 10 ^ 400 * U := by
        rw [div_mul_eq_mul_div, le_div_iff₀ p4]
        generalize (10 : ℝ) ^ 400 = w at *
        have : (t.mag : ℝ) * w / U * (1 / 2) ≤ d := le_trans (by gcongr; norm_num) e
        rw [div_mul_eq_mul_div, div_le_iff₀ U0] at this
        linarith
      have : ((2 : ℝ) ^ 53)⁻¹ * (2 ^ 70 / 2) ≤ (2 ^ 53)⁻¹ * (d / 10 ^ 400 * U) := by gcongr; linarith
      refine le_trans ?_ this
      norm_num
    have rel' : |d - (reread t).mag * 10 ^ 400 / U| ≤ 1 / 40 * 10 ^ k := by
      have e : d - (reread t).mag * 10 ^ 400 / U = -(((reread t).mag - d / 10 ^ 400 * U) * 10 ^ 400 / U) := by
        generalize (10 : ℝ) ^ 400 = w at *
        field_simp; ring
      rw [e, abs_neg, abs_div, abs_mul, abs_of_pos U0, abs_of_pos p4, div_le_iff₀ U0]
      have r2 : |((reread t).mag : ℝ) - d / 10 ^ 400 * U| ≤ 2 * ((2 ^ 53)⁻¹ * (d / 10 ^ 400 * U)) := by linarith
      calc |((reread t).mag : ℝ) - d / 10 ^ 400 * U| * 10 ^ 400 ≤ 2 * ((2 ^ 53)⁻¹ * (d / 10 ^ 400 * U)) * 10 ^ 400 := by gcongr
        _ = 2 * (2 ^ 53)⁻¹ * d * U := by generalize (10 : ℝ) ^ 400 = w at *; field_simp
        _ ≤ 2 * (2 ^ 53)⁻¹ * (10 ^ 13 * 10 ^ k) * U := by gcongr
        _ = (2 * (2 ^ 53)⁻¹ * 10 ^ 13) * 10 ^ k * U := by ring
        _ ≤ 1 / 40 * 10 ^ k * U := by gcongr; norm_num
    have m0 : (reread t).mag ≠ 0 := by
      intro hz
      rw [hz] at rel
      rw [Nat.cast_zero, zero_sub, abs_neg, abs_of_nonneg (by positivity)] at rel
      generalize d / 10 ^ 400 * U = w at *
      have : ((2 : ℝ) ^ 53)⁻¹ * w ≤ 1 / 4 * w := by
        have w0 : 0 ≤ w := by
          by_contra hc
          have : ((2 : ℝ) ^ 53)⁻¹ * w ≤ 0 := mul_nonpos_of_nonneg_of_nonpos (by positivity) (by linarith)
          linarith
        gcongr; norm_num
      linarith
    have := decimal_unique (q := (decimal t.mag).1) (L := (decimal t.mag).2) m0 hq1 hq2 h12 (by rw [hk]; exact rel')
    rw [this]

end Dbl
end SG
