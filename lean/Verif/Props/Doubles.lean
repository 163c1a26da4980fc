import Verif.Lemmas.IeeeNearest
import Verif.Props.RoundedAreas
/-! # IEEE doubles satisfy the laws assumed elsewhere; C117 and C118 for doubles

`Dbl` is the number type the code runs with (`Base.Ieee`).  This file shows that the hypotheses on the number type that appear in other theorems
(`FloatOrder`, `FloatTotal`, `ZeroLaw`, `LawfulF64`, `RoundedAdd`, `Rounded`) hold for it, whatever the C library computes for `cos`, `sin`, `arccos`. -/
set_option linter.unusedSectionVars false
set_option exponentiation.threshold 5000

namespace SG
variable [Libm]

instance : FloatOrder Dbl where
  irrefl a := by simp [PyFloat.lt, Dbl.lt]
  trans a b c h1 h2 := by
    simp only [PyFloat.lt, Dbl.lt_iff] at *
    exact ⟨h1.1, h2.2.1, h1.2.2.trans h2.2.2⟩
  le_lt_trans a b c h1 h2 := by
    simp only [PyFloat.lt, PyFloat.le, Dbl.lt_iff, Dbl.le_iff] at *
    exact ⟨h1.1, h2.2.1, h1.2.2.trans_lt h2.2.2⟩

instance : FloatTotal Dbl where
  le_self a b h := by
    simp only [PyFloat.le, Dbl.le_iff] at *
    exact ⟨⟨h.1, h.1, le_refl _⟩, h.2.1, h.2.1, le_refl _⟩
  lt_le a b h := by
    simp only [PyFloat.lt, PyFloat.le, Dbl.lt_iff, Dbl.le_iff] at *
    exact ⟨h.1, h.2.1, h.2.2.le⟩
  le_trans a b c h1 h2 := by
    simp only [PyFloat.le, Dbl.le_iff] at *
    exact ⟨h1.1, h2.2.1, h1.2.2.trans h2.2.2⟩
  total a b h1 h2 h := by
    simp only [PyFloat.lt, PyFloat.le, Dbl.le_iff] at *
    refine ⟨h2.1, h1.1, ?_⟩
    by_contra hc
    rw [Dbl.lt_iff.2 ⟨h1.1, h2.1, not_le.1 hc⟩] at h
    exact absurd h (by decide)
  inf_self := by
    show Dbl.le (Dbl.infD false) (Dbl.infD false) = true
    decide +kernel

instance : ZeroLaw Dbl := ⟨by show decide ((Dbl.lit 0 1).mag = 0) = true; decide +kernel⟩

/-- The absolute error of products that underflow: `2⁻¹⁰⁷⁵`. -/
noncomputable def tiny : ℝ := 1 / 2 / Dbl.U

theorem tiny_eq : tiny = 1 / 2 ^ 1075 := by
  unfold tiny
  rw [Dbl.U_eq, pow_succ (2 : ℝ) 1074]
  generalize (2 : ℝ) ^ 1074 = a
  rw [div_div, mul_comm]

theorem tiny_nonneg : 0 ≤ tiny := div_nonneg (by norm_num) Dbl.U_pos.le

theorem tiny_le : tiny ≤ (2 ^ 53)⁻¹ := by
  unfold tiny
  rw [div_div, div_le_iff₀ (mul_pos two_pos Dbl.U_pos)]
  have : (2 : ℝ) ^ 53 ≤ Dbl.U := by
    rw [Dbl.U_eq]; exact pow_le_pow_right₀ (by norm_num) (by norm_num)
  have h : (0 : ℝ) < 2 ^ 53 := by norm_num
  rw [inv_mul_eq_div, le_div_iff₀ h]
  linarith

/-- IEEE doubles have the rounding errors assumed in C117 and C118. -/
noncomputable def doubles : Rounded Dbl (2 ^ 53)⁻¹ tiny where
  fin x := x.isFin = true
  val := Dbl.val
  add := Dbl.add_err
  sub := Dbl.sub_err
  mul := Dbl.mul_err
  sqrt := Dbl.sqrt_err
  half := by
    show (Dbl.lit 1 2).val = 1 / 2
    have h1 : (Dbl.lit 1 2).neg = false := by decide +kernel
    have h2 : (Dbl.lit 1 2).mag = 2 ^ 1073 := by decide +kernel
    unfold Dbl.val
    rw [Dbl.int_cast, h1, h2, if_neg (by decide), ← Dbl.U_cast, pow_succ 2 1073, Nat.cast_mul]
    have : (0 : ℝ) < ((2 ^ 1073 : Nat) : ℝ) := Nat.cast_pos.2 (Nat.two_pow_pos _)
    generalize ((2 ^ 1073 : Nat) : ℝ) = a at *
    push_cast
    field_simp

/-! ## Results that cannot overflow -/

/-- A finite number of absolute value at most `b`. -/
def Within (b : ℝ) (x : Dbl) : Prop := x.isFin = true ∧ |x.val| ≤ b

theorem two53 : ((2 : ℝ) ^ 53)⁻¹ ≤ 1 := by norm_num

theorem Within.add {a b c : ℝ} {x y : Dbl} (hx : Within a x) (hy : Within b y) (hc : 2 * (a + b) ≤ c) (ht : a + b ≤ Dbl.top) :
    Within c (x +ₚ y) := by
  have h1 : |x.val + y.val| ≤ a + b := (abs_add_le _ _).trans (add_le_add hx.2 hy.2)
  have f : (Dbl.add x y).isFin = true := Dbl.fin_add hx.1 hy.1 (h1.trans ht)
  refine ⟨f, ?_⟩
  obtain ⟨-, -, e⟩ := Dbl.add_err x y f
  have h2 : |(Dbl.add x y).val| ≤ |x.val + y.val| + |(Dbl.add x y).val - (x.val + y.val)| := by
    have := abs_add_le (x.val + y.val) ((Dbl.add x y).val - (x.val + y.val))
    rwa [add_sub_cancel] at this
  have h3 : ((2 : ℝ) ^ 53)⁻¹ * |x.val + y.val| ≤ 1 * |x.val + y.val| := mul_le_mul_of_nonneg_right two53 (abs_nonneg _)
  show |(Dbl.add x y).val| ≤ c
  linarith

theorem Within.sub {a b c : ℝ} {x y : Dbl} (hx : Within a x) (hy : Within b y) (hc : 2 * (a + b) ≤ c) (ht : a + b ≤ Dbl.top) :
    Within c (x -ₚ y) := by
  have h1 : |x.val - y.val| ≤ a + b := (abs_sub _ _).trans (add_le_add hx.2 hy.2)
  have f : (Dbl.sub x y).isFin = true := Dbl.fin_sub hx.1 hy.1 (h1.trans ht)
  refine ⟨f, ?_⟩
  obtain ⟨-, -, e⟩ := Dbl.sub_err x y f
  have h2 : |(Dbl.sub x y).val| ≤ |x.val - y.val| + |(Dbl.sub x y).val - (x.val - y.val)| := by
    have := abs_add_le (x.val - y.val) ((Dbl.sub x y).val - (x.val - y.val))
    rwa [add_sub_cancel] at this
  have h3 : ((2 : ℝ) ^ 53)⁻¹ * |x.val - y.val| ≤ 1 * |x.val - y.val| := mul_le_mul_of_nonneg_right two53 (abs_nonneg _)
  show |(Dbl.sub x y).val| ≤ c
  linarith

theorem Within.mul {a b c : ℝ} {x y : Dbl} (hx : Within a x) (hy : Within b y) (hc : 2 * (a * b) + 1 ≤ c) (ht : a * b ≤ Dbl.top) :
    Within c (x *ₚ y) := by
  have h1 : |x.val * y.val| ≤ a * b := by
    rw [abs_mul]; exact mul_le_mul hx.2 hy.2 (abs_nonneg _) ((abs_nonneg _).trans hx.2)
  have f : (Dbl.mul x y).isFin = true := Dbl.fin_mul hx.1 hy.1 (h1.trans ht)
  refine ⟨f, ?_⟩
  obtain ⟨-, -, e⟩ := Dbl.mul_err x y f
  have h2 : |(Dbl.mul x y).val| ≤ |x.val * y.val| + |(Dbl.mul x y).val - x.val * y.val| := by
    have := abs_add_le (x.val * y.val) ((Dbl.mul x y).val - x.val * y.val)
    rwa [add_sub_cancel] at this
  have h3 : ((2 : ℝ) ^ 53)⁻¹ * |x.val * y.val| ≤ 1 * |x.val * y.val| := mul_le_mul_of_nonneg_right two53 (abs_nonneg _)
  have h4 : 1 / 2 / Dbl.U ≤ 1 := tiny_le.trans two53
  show |(Dbl.mul x y).val| ≤ c
  linarith

theorem Within.mono {a b : ℝ} {x : Dbl} (h : Within a x) (hab : a ≤ b) : Within b x := ⟨h.1, h.2.trans hab⟩

theorem mul_self_val_nonneg {x : Dbl} (h : (Dbl.mul x x).isFin = true) : 0 ≤ (Dbl.mul x x).val := by
  obtain ⟨hx, -⟩ := Dbl.fin_of_mul h
  rw [Dbl.mul_fin hx hx] at h ⊢
  obtain ⟨-, h2, -⟩ := Dbl.encode_fin (Dbl.roundFrac_sig _ (Nat.two_pow_pos _)) h
  unfold Dbl.val
  rw [Dbl.int_cast, h2]
  simp only [bne_self_eq_false, Bool.false_eq_true, if_false]
  exact div_nonneg (Nat.cast_nonneg _) Dbl.U_pos.le

theorem add_nonneg' {x y : Dbl} (h : (Dbl.add x y).isFin = true) (hx : 0 ≤ x.val) (hy : 0 ≤ y.val) : 0 ≤ (Dbl.add x y).val := by
  obtain ⟨-, -, e⟩ := Dbl.add_err x y h
  rw [abs_of_nonneg (add_nonneg hx hy)] at e
  have := (abs_le.1 e).1
  have k : ((2 : ℝ) ^ 53)⁻¹ * (x.val + y.val) ≤ 1 * (x.val + y.val) := mul_le_mul_of_nonneg_right two53 (by linarith)
  linarith

/-- The coordinates of a corner are finite and not larger than 2. -/
def Unitish (p : V3 Dbl) : Prop := Within 2 p.x ∧ Within 2 p.y ∧ Within 2 p.z

/-- The planar area of a cell on the unit sphere is finite. -/
theorem pquadCell_within {A B C D : V3 Dbl} (hA : Unitish A) (hB : Unitish B) (hC : Unitish C) (hD : Unitish D) :
    Within (2 ^ 40) (pquadCell A B C D) := by
  have big : (2 : ℝ) ^ 100 ≤ Dbl.top := Dbl.top_big 100 (by norm_num)
  have lb : ∀ t : ℝ, t ≤ 2 ^ 100 → t ≤ Dbl.top := fun t h => h.trans big
  have d : ∀ {x y : Dbl}, Within 2 x → Within 2 y → Within 8 (x -ₚ y) := fun h k => h.sub k (by norm_num) (lb _ (by norm_num))
  have m : ∀ {x y : Dbl}, Within 8 x → Within 8 y → Within 129 (x *ₚ y) := fun h k => h.mul k (by norm_num) (lb _ (by norm_num))
  have c : ∀ {a b c d : Dbl}, Within 8 a → Within 8 b → Within 8 c → Within 8 d → Within 516 (a *ₚ b -ₚ c *ₚ d) := fun h1 h2 h3 h4 =>
    (m h1 h2).sub (m h3 h4) (by norm_num) (lb _ (by norm_num))
  have s : ∀ {x y : Dbl}, Within 516 x → Within 516 y → Within 2064 (x +ₚ y) := fun h k => h.add k (by norm_num) (lb _ (by norm_num))
  have q : ∀ {x : Dbl}, Within 2064 x → Within (2 ^ 24) (x *ₚ x) := fun h => h.mul h (by norm_num) (lb _ (by norm_num))
  obtain ⟨a1, a2, a3⟩ := hA
  obtain ⟨b1, b2, b3⟩ := hB
  obtain ⟨c1, c2, c3⟩ := hC
  obtain ⟨d1, d2, d3⟩ := hD
  have ab1 := d b1 a1; have ab2 := d b2 a2; have ab3 := d b3 a3
  have ac1 := d c1 a1; have ac2 := d c2 a2; have ac3 := d c3 a3
  have ad1 := d d1 a1; have ad2 := d d2 a2; have ad3 := d d3 a3
  have n1 := s (c ab2 ac3 ab3 ac2) (c ac2 ad3 ac3 ad2)
  have n2 := s (c ab3 ac1 ab1 ac3) (c ac3 ad1 ac1 ad3)
  have n3 := s (c ab1 ac2 ab2 ac1) (c ac1 ad2 ac2 ad1)
  have q1 := q n1; have q2 := q n2; have q3 := q n3
  have s1 : Within (2 ^ 26) _ := q1.add q2 (by norm_num) (lb _ (by norm_num))
  have s2 : Within (2 ^ 28) _ := s1.add q3 (by norm_num) (lb _ (by norm_num))
  have p1 := add_nonneg' s1.1 (mul_self_val_nonneg q1.1) (mul_self_val_nonneg q2.1)
  have p2 := add_nonneg' s2.1 p1 (mul_self_val_nonneg q3.1)
  have fr := Dbl.fin_sqrt s2.1 p2
  obtain ⟨-, -, e⟩ := Dbl.sqrt_err _ fr
  have hs : Within (2 ^ 30) (V3.norm (((B.sub A).cross (C.sub A)).add ((C.sub A).cross (D.sub A)))) := by
    refine ⟨fr, ?_⟩
    have r := Real.sqrt_le_sqrt ((le_abs_self _).trans s2.2)
    have r14 : √((2 : ℝ) ^ 28) = 2 ^ 14 := by
      rw [show (2 : ℝ) ^ 28 = 2 ^ 14 * 2 ^ 14 by norm_num, Real.sqrt_mul_self (by norm_num)]
    rw [r14] at r
    have fin : ∀ v w : ℝ, 0 ≤ w → w ≤ 2 ^ 14 → |v - w| ≤ (2 ^ 53)⁻¹ * w → |v| ≤ 2 ^ 30 := by
      intro v w w0 w1 h
      have k := mul_le_mul_of_nonneg_right two53 w0
      have := abs_le.1 (h.trans k)
      rw [abs_le]
      constructor <;> norm_num at * <;> linarith
    exact fin _ _ (Real.sqrt_nonneg _) r e
  have hh : Within 1 (Arith.half : Dbl) := by
    refine ⟨by show (Dbl.lit 1 2).isFin = true; decide +kernel, ?_⟩
    have := doubles.half
    change (Arith.half : Dbl).val = _ at this
    rw [this]; norm_num
  exact hh.mul hs (by norm_num) (lb _ (by norm_num))

end SG
