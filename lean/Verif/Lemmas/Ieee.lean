import Verif.Base.Ieee
import Mathlib.Data.Real.Basic
import Mathlib.Data.Real.Sqrt
import Mathlib.Data.Nat.Log
import Mathlib.Tactic.Linarith
import Mathlib.Tactic.Positivity
import Mathlib.Tactic.Ring
import Mathlib.Tactic.NormNum
/-! # Lemmas on IEEE doubles -/
set_option linter.unusedSectionVars false
set_option exponentiation.threshold 5000

namespace SG

/-! ## Rounding -/

/-- `cmp` compares `2 * r` with natural numbers, `fl` is the whole part of `r`. -/
structure Exactly (r : ℝ) (fl : Nat) (cmp : Nat → Ordering) : Prop where
  lo : (fl : ℝ) ≤ r
  hi : r < fl + 1
  lt : ∀ n : Nat, cmp n = .lt → 2 * r < n
  eq : ∀ n : Nat, cmp n = .eq → 2 * r = n
  gt : ∀ n : Nat, cmp n = .gt → (n : ℝ) < 2 * r

theorem exactly_frac (a b : Nat) (hb : 0 < b) : Exactly ((a : ℝ) / b) (a / b) fun n => compare (2 * a) (n * b) := by
  have b0 : (0 : ℝ) < b := by exact_mod_cast hb
  refine ⟨?_, ?_, fun n h => ?_, fun n h => ?_, fun n h => ?_⟩
  · rw [le_div_iff₀ b0]
    exact_mod_cast Nat.div_mul_le_self a b
  · rw [div_lt_iff₀ b0]
    have := Nat.lt_div_mul_add (a := a) hb
    have h : a < (a / b + 1) * b := by rw [Nat.add_mul, Nat.one_mul]; exact this
    exact_mod_cast h
  · rw [Nat.compare_eq_lt] at h
    rw [← mul_div_assoc, div_lt_iff₀ b0]
    exact_mod_cast h
  · rw [Nat.compare_eq_eq] at h
    rw [← mul_div_assoc, div_eq_iff b0.ne']
    exact_mod_cast h
  · rw [Nat.compare_eq_gt] at h
    rw [← mul_div_assoc, lt_div_iff₀ b0]
    exact_mod_cast h

theorem isqrtAux_spec (n : Nat) : ∀ k lo, lo * lo ≤ n → n < (lo + 2 ^ k) * (lo + 2 ^ k) →
    isqrtAux n k lo * isqrtAux n k lo ≤ n ∧ n < (isqrtAux n k lo + 1) * (isqrtAux n k lo + 1)
  | 0, lo, h1, h2 => ⟨h1, by simpa [isqrtAux] using h2⟩
  | k + 1, lo, h1, h2 => by
    unfold isqrtAux
    split
    · rename_i h
      refine isqrtAux_spec n k _ h ?_
      have : lo + 2 ^ k + 2 ^ k = lo + 2 ^ (k + 1) := by rw [pow_succ]; ring
      rw [this]; exact h2
    · rename_i h
      exact isqrtAux_spec n k _ h1 (by omega)

theorem isqrt_spec (n : Nat) : isqrt n * isqrt n ≤ n ∧ n < (isqrt n + 1) * (isqrt n + 1) := by
  refine isqrtAux_spec n _ 0 (by simp) ?_
  have h1 := Nat.lt_log2_self (n := n)
  refine h1.trans_le ?_
  rw [Nat.zero_add, ← pow_add]
  exact Nat.pow_le_pow_right (by norm_num) (by omega)

theorem exactly_sqrt (n : Nat) : Exactly (√(n : ℝ)) (isqrt n) fun m => compare (4 * n) (m * m) := by
  obtain ⟨h1, h2⟩ := isqrt_spec n
  have s0 := Real.sqrt_nonneg (n : ℝ)
  have ss : √(n : ℝ) * √(n : ℝ) = n := Real.mul_self_sqrt (Nat.cast_nonneg n)
  refine ⟨?_, ?_, fun m h => ?_, fun m h => ?_, fun m h => ?_⟩
  · refine Real.le_sqrt_of_sq_le ?_
    rw [sq]; exact_mod_cast h1
  · rw [Real.sqrt_lt' (by positivity), sq]
    exact_mod_cast h2
  · rw [Nat.compare_eq_lt] at h
    have h' : (4 : ℝ) * n < m * m := by exact_mod_cast h
    have m0 : (0 : ℝ) ≤ m := Nat.cast_nonneg m
    by_contra hc
    nlinarith
  · rw [Nat.compare_eq_eq] at h
    have h' : (4 : ℝ) * n = m * m := by exact_mod_cast h
    have m0 : (0 : ℝ) ≤ m := Nat.cast_nonneg m
    have : (2 * √(n : ℝ)) * (2 * √(n : ℝ)) = m * m := by linarith
    exact (mul_self_inj (by positivity) m0).1 this
  · rw [Nat.compare_eq_gt] at h
    have h' : (m : ℝ) * m < 4 * n := by exact_mod_cast h
    have m0 : (0 : ℝ) ≤ m := Nat.cast_nonneg m
    by_contra hc
    nlinarith

/-- The number has `p` significant bits. -/
def Sig (p n : Nat) : Prop := ∃ q k, q < 2 ^ p ∧ n = q * 2 ^ k

section
variable {p fl : Nat} {cmp : Nat → Ordering} {r : ℝ}

/-- The significand before rounding. -/
theorem quot_bounds (h : Exactly r fl cmp) (k : Nat) :
    ((fl / 2 ^ k : Nat) : ℝ) * 2 ^ k ≤ r ∧ r < (((fl / 2 ^ k : Nat) : ℝ) + 1) * 2 ^ k := by
  have k0 : 0 < 2 ^ k := Nat.two_pow_pos k
  constructor
  · refine le_trans ?_ h.lo
    exact_mod_cast Nat.div_mul_le_self fl (2 ^ k)
  · refine lt_of_lt_of_le h.hi ?_
    have : fl < (fl / 2 ^ k + 1) * 2 ^ k := by
      rw [Nat.add_mul, Nat.one_mul]; exact Nat.lt_div_mul_add (a := fl) k0
    exact_mod_cast this

theorem roundTo_cases (h : Exactly r fl cmp) :
    (roundTo p fl cmp = fl / 2 ^ ulpExp p fl * 2 ^ ulpExp p fl ∧ 2 * r ≤ (2 * (fl / 2 ^ ulpExp p fl : Nat) + 1) * 2 ^ ulpExp p fl ∧
      (2 * r = (2 * (fl / 2 ^ ulpExp p fl : Nat) + 1) * 2 ^ ulpExp p fl → fl / 2 ^ ulpExp p fl % 2 = 0)) ∨
    (roundTo p fl cmp = (fl / 2 ^ ulpExp p fl + 1) * 2 ^ ulpExp p fl ∧ (2 * (fl / 2 ^ ulpExp p fl : Nat) + 1) * 2 ^ ulpExp p fl ≤ 2 * r ∧
      (2 * r = (2 * (fl / 2 ^ ulpExp p fl : Nat) + 1) * 2 ^ ulpExp p fl → (fl / 2 ^ ulpExp p fl + 1) % 2 = 0)) := by
  unfold roundTo
  simp only
  generalize hk : ulpExp p fl = k
  generalize hq : fl / 2 ^ k = q
  have cast : (((2 * q + 1) * 2 ^ k : Nat) : ℝ) = (2 * (q : ℝ) + 1) * 2 ^ k := by push_cast; ring
  rcases hc : cmp ((2 * q + 1) * 2 ^ k) with _ | _ | _
  · left
    have := h.lt _ hc
    rw [cast] at this
    exact ⟨rfl, this.le, fun e => absurd e this.ne⟩
  · have := h.eq _ hc
    rw [cast] at this
    by_cases e : q % 2 = 0
    · left; exact ⟨by simp [roundQ, e], this.le, fun _ => e⟩
    · right; exact ⟨by simp [roundQ, e], this.ge, fun _ => by omega⟩
  · right
    have := h.gt _ hc
    rw [cast] at this
    exact ⟨rfl, this.le, fun e => absurd e this.ne'⟩

/-- The error is at most half a unit in the last place. -/
theorem roundTo_err (h : Exactly r fl cmp) : |(roundTo p fl cmp : ℝ) - r| ≤ 2 ^ ulpExp p fl / 2 := by
  obtain ⟨h1, h2⟩ := quot_bounds h (ulpExp p fl)
  rcases roundTo_cases (p := p) h with ⟨e, a, -⟩ | ⟨e, a, -⟩
  · rw [e]
    push_cast
    rw [abs_le]; constructor <;> nlinarith
  · rw [e]
    push_cast
    rw [abs_le]; constructor <;> nlinarith

theorem ulp_pos_bound (hp : 0 < p) (hk : 0 < ulpExp p fl) : 2 ^ (p + ulpExp p fl) ≤ 2 * fl := by
  unfold ulpExp at *
  have h0 : fl ≠ 0 := by
    rintro rfl
    have : Nat.log2 0 = 0 := by decide
    omega
  have := Nat.log2_self_le h0
  calc 2 ^ (p + (fl.log2 + 1 - p)) = 2 ^ (fl.log2 + 1) := by congr 1; omega
    _ = 2 * 2 ^ fl.log2 := by rw [pow_succ]; ring
    _ ≤ 2 * fl := by omega

theorem lt_ulp (p fl : Nat) : fl < 2 ^ (p + ulpExp p fl) := by
  unfold ulpExp
  refine Nat.lt_log2_self.trans_le (Nat.pow_le_pow_right (by norm_num) (by omega))

theorem quot_lt (p fl : Nat) : fl / 2 ^ ulpExp p fl < 2 ^ p := by
  rw [Nat.div_lt_iff_lt_mul (Nat.two_pow_pos _), ← pow_add]
  exact lt_ulp p fl

/-- Relative error where steps are larger than 1. -/
theorem roundTo_rel (hp : 0 < p) (h : Exactly r fl cmp) (hk : 0 < ulpExp p fl) : |(roundTo p fl cmp : ℝ) - r| ≤ (2 ^ p)⁻¹ * r := by
  refine (roundTo_err h).trans ?_
  have h1 := ulp_pos_bound hp hk
  have h2 : (2 : ℝ) ^ (p + ulpExp p fl) ≤ 2 * fl := by exact_mod_cast h1
  have p0 : (0 : ℝ) < 2 ^ p := by positivity
  rw [pow_add] at h2
  have h3 : (2 : ℝ) ^ p * 2 ^ ulpExp p fl ≤ 2 * r := h2.trans (by linarith [h.lo])
  rw [inv_mul_eq_div, le_div_iff₀ p0]
  linarith

theorem roundTo_rel_abs (hp : 0 < p) (h : Exactly r fl cmp) : |(roundTo p fl cmp : ℝ) - r| ≤ (2 ^ p)⁻¹ * r + 1 / 2 := by
  have r0 : 0 ≤ r := (Nat.cast_nonneg fl).trans h.lo
  rcases Nat.eq_zero_or_pos (ulpExp p fl) with hk | hk
  · refine (roundTo_err h).trans ?_
    rw [hk]
    have : 0 ≤ ((2 : ℝ) ^ p)⁻¹ * r := by positivity
    norm_num
    linarith
  · exact (roundTo_rel hp h hk).trans (by linarith)

theorem roundTo_sig (h : Exactly r fl cmp) : ∃ q k, q ≤ 2 ^ p ∧ roundTo p fl cmp = q * 2 ^ k := by
  have := quot_lt p fl
  rcases roundTo_cases (p := p) h with ⟨e, -⟩ | ⟨e, -⟩
  · exact ⟨_, _, this.le, e⟩
  · exact ⟨_, _, this, e⟩

end

/-- Whole numbers are rounded with a relative error only. -/
theorem roundFrac_one {p : Nat} (hp : 0 < p) (a : Nat) : |(roundFrac p a 1 : ℝ) - a| ≤ (2 ^ p)⁻¹ * a := by
  have h := exactly_frac a 1 one_pos
  rw [Nat.cast_one, div_one, Nat.div_one] at h
  rcases Nat.eq_zero_or_pos (ulpExp p a) with hk | hk
  · have : roundFrac p a 1 = a := by
      unfold roundFrac roundTo
      rw [Nat.div_one, hk]
      simp only [pow_zero, Nat.div_one, mul_one]
      rw [Nat.compare_eq_lt.2 (by omega)]
      rfl
    rw [this, sub_self, abs_zero]
    positivity
  · have := roundTo_rel (p := p) hp h hk
    unfold roundFrac
    rw [Nat.div_one]
    exact this

/-- Numbers with `p` bits are not changed. -/
theorem roundFrac_exact {p a : Nat} (hp : 0 < p) (h : Sig p a) : roundFrac p a 1 = a := by
  obtain ⟨q, j, hq, rfl⟩ := h
  have hx := exactly_frac (q * 2 ^ j) 1 one_pos
  rw [Nat.cast_one, div_one, Nat.div_one] at hx
  have hk : ulpExp p (q * 2 ^ j) ≤ j := by
    unfold ulpExp
    by_contra hc
    rcases Nat.eq_zero_or_pos q with rfl | q0
    · have : Nat.log2 0 = 0 := by decide
      rw [Nat.zero_mul] at hc
      omega
    · have h0 : q * 2 ^ j ≠ 0 := by positivity
      have h1 := Nat.log2_self_le h0
      have h2 : q * 2 ^ j < 2 ^ (p + j) := by rw [pow_add]; exact Nat.mul_lt_mul_of_pos_right hq (Nat.two_pow_pos j)
      have := (Nat.pow_lt_pow_iff_right (a := 2) (by norm_num)).1 (h1.trans_lt h2)
      omega
  have hd : 2 ^ ulpExp p (q * 2 ^ j) ∣ q * 2 ^ j := (pow_dvd_pow 2 hk).mul_left q
  unfold roundFrac roundTo
  rw [Nat.div_one]
  simp only
  generalize q * 2 ^ j = n at *
  generalize ulpExp p n = k at *
  obtain ⟨c, hc⟩ := hd
  have hdiv : n / 2 ^ k = c := by rw [hc, Nat.mul_div_cancel_left _ (Nat.two_pow_pos _)]
  have : compare (2 * n) ((2 * c + 1) * 2 ^ k * 1) = .lt := by
    rw [Nat.compare_eq_lt, hc]
    have := Nat.two_pow_pos k
    nlinarith
  rw [hdiv, this]
  simp only [roundQ]
  rw [hc, mul_comm]

/-- `n` in normal form. -/
theorem sig_normal {P n : Nat} (h : ∃ q k, q ≤ 2 ^ (P + 1) ∧ n = q * 2 ^ k) (hn : 2 ^ P ≤ n) :
    ∃ f, f < 2 ^ P ∧ n = (2 ^ P + f) * 2 ^ (Nat.log2 n - P) ∧ n / 2 ^ (Nat.log2 n - P) - 2 ^ P = f := by
  have P0 := Nat.two_pow_pos P
  have n0 : n ≠ 0 := by omega
  have l1 := Nat.log2_self_le n0
  have l2 := Nat.lt_log2_self (n := n)
  have lP : P ≤ Nat.log2 n := by
    by_contra hc
    have : 2 ^ (Nat.log2 n + 1) ≤ 2 ^ P := Nat.pow_le_pow_right (by norm_num) (by omega)
    omega
  generalize hL : Nat.log2 n = L at *
  obtain ⟨j, rfl⟩ : ∃ j, L = P + j := ⟨L - P, by omega⟩
  rw [Nat.add_sub_cancel_left]
  have hd : 2 ^ j ∣ n := by
    obtain ⟨q, k, hq, e⟩ := h
    rcases Nat.lt_or_ge k j with hkj | hkj
    · -- then `n = 2 ^ (P + 1 + k)`
      have u : n ≤ 2 ^ (P + 1 + k) := by rw [e, pow_add]; exact Nat.mul_le_mul_right _ hq
      have v : 2 ^ (P + 1 + k) ≤ 2 ^ (P + j) := Nat.pow_le_pow_right (by norm_num) (by omega)
      have : n = 2 ^ (P + j) := by omega
      rw [this]; exact pow_dvd_pow 2 (by omega)
    · rw [e]; exact (pow_dvd_pow 2 hkj).mul_left q
  obtain ⟨c, hc⟩ := hd
  have j0 := Nat.two_pow_pos j
  have c1 : 2 ^ P ≤ c := by
    rw [hc, Nat.add_comm, pow_add] at l1
    exact Nat.le_of_mul_le_mul_left l1 j0
  have c2 : c < 2 ^ (P + 1) := by
    rw [hc, show P + j + 1 = j + (P + 1) by omega, pow_add] at l2
    exact Nat.lt_of_mul_lt_mul_left l2
  refine ⟨c - 2 ^ P, by rw [pow_succ] at c2; omega, ?_, ?_⟩
  · rw [hc, Nat.add_sub_cancel' c1, mul_comm]
  · rw [hc, Nat.mul_div_cancel_left _ j0]

end SG
