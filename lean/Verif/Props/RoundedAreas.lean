import Verif.Props.Rounding
import Verif.Props.Geometry
import Verif.Props.AreaFormulas
import Mathlib.Analysis.InnerProductSpace.PiL2
/-! # C118: rounding errors of `pquad_uarea` -/
set_option linter.unusedSectionVars false

namespace SG
variable {F : Type} [Arith F]

/-- What is assumed of rounded arithmetic; IEEE-754 doubles satisfy it with `u = 2⁻⁵³` and `η = 2⁻¹⁰⁷⁵` (products may be subnormal): if a result is
finite so are the operands, and it is the exact result up to the relative error `u`, for products also the absolute error `η`. -/
structure Rounded (F : Type) [Arith F] (u η : ℝ) extends RoundedAdd F u where
  sub : ∀ x y : F, fin (x -ₚ y) → fin x ∧ fin y ∧ |val (x -ₚ y) - (val x - val y)| ≤ u * |val x - val y|
  mul : ∀ x y : F, fin (x *ₚ y) → fin x ∧ fin y ∧ |val (x *ₚ y) - val x * val y| ≤ u * |val x * val y| + η
  sqrt : ∀ x : F, fin (Arith.sqrt x) → fin x ∧ 0 ≤ val x ∧ |val (Arith.sqrt x) - √(val x)| ≤ u * √(val x)
  half : val Arith.half = 1 / 2

/-- The point that three floats stand for. -/
def Rounded.pt {u η : ℝ} (R : Rounded F u η) (p : V3 F) : V3 ℝ := ⟨R.val p.x, R.val p.y, R.val p.z⟩

/-- Distance of two points. -/
noncomputable def Spec.chord (p q : V3 ℝ) : ℝ := √(Spec.dist2 p q)

variable {u η : ℝ}

/-! ## Errors of the steps -/

theorem err_prod (h0 : 0 ≤ u) {a b a' b' p : ℝ} (ha : |a' - a| ≤ u * |a|) (hb : |b' - b| ≤ u * |b|) (hp : |p - a' * b'| ≤ u * |a' * b'| + η) :
    |p - a * b| ≤ ((1 + u) ^ 3 - 1) * |a * b| + η := by
  have ha' : |a'| ≤ (1 + u) * |a| := by
    calc |a'| = |(a' - a) + a| := by ring_nf
      _ ≤ |a' - a| + |a| := abs_add_le _ _
      _ ≤ _ := by linarith
  have hb' : |b'| ≤ (1 + u) * |b| := by
    calc |b'| = |(b' - b) + b| := by ring_nf
      _ ≤ |b' - b| + |b| := abs_add_le _ _
      _ ≤ _ := by linarith
  have h1 : |a' * b' - a * b| ≤ u * |a| * ((1 + u) * |b|) + |a| * (u * |b|) := by
    calc |a' * b' - a * b| = |(a' - a) * b' + a * (b' - b)| := by ring_nf
      _ ≤ |(a' - a) * b'| + |a * (b' - b)| := abs_add_le _ _
      _ = |a' - a| * |b'| + |a| * |b' - b| := by rw [abs_mul, abs_mul]
      _ ≤ _ := by gcongr
  have h2 : |a' * b'| ≤ (1 + u) * |a| * ((1 + u) * |b|) := by
    rw [abs_mul]; gcongr
  calc |p - a * b| = |(p - a' * b') + (a' * b' - a * b)| := by ring_nf
    _ ≤ |p - a' * b'| + |a' * b' - a * b| := abs_add_le _ _
    _ ≤ u * ((1 + u) * |a| * ((1 + u) * |b|)) + η + (u * |a| * ((1 + u) * |b|) + |a| * (u * |b|)) := by
      have := mul_le_mul_of_nonneg_left h2 h0
      linarith
    _ = ((1 + u) ^ 3 - 1) * |a * b| + η := by rw [abs_mul]; ring

theorem err_sum (h0 : 0 ≤ u) {g t p q P Q A B k : ℝ} (hp : |p - P| ≤ g * A + t) (hq : |q - Q| ≤ g * B + t) (hA : |P| ≤ A) (hB : |Q| ≤ B)
    (hk : |k - (p + q)| ≤ u * |p + q|) : |k - (P + Q)| ≤ ((1 + u) * (1 + g) - 1) * (A + B) + 2 * (1 + u) * t := by
  have h1 : |(p + q) - (P + Q)| ≤ g * (A + B) + 2 * t := by
    calc |(p + q) - (P + Q)| = |(p - P) + (q - Q)| := by ring_nf
      _ ≤ |p - P| + |q - Q| := abs_add_le _ _
      _ ≤ _ := by linarith
  have h2 : |p + q| ≤ (1 + g) * (A + B) + 2 * t := by
    calc |p + q| = |((p + q) - (P + Q)) + (P + Q)| := by ring_nf
      _ ≤ |(p + q) - (P + Q)| + |P + Q| := abs_add_le _ _
      _ ≤ |(p + q) - (P + Q)| + (|P| + |Q|) := by gcongr; exact abs_add_le _ _
      _ ≤ _ := by linarith
  calc |k - (P + Q)| = |(k - (p + q)) + ((p + q) - (P + Q))| := by ring_nf
    _ ≤ |k - (p + q)| + |(p + q) - (P + Q)| := abs_add_le _ _
    _ ≤ u * ((1 + g) * (A + B) + 2 * t) + (g * (A + B) + 2 * t) := by
      have := mul_le_mul_of_nonneg_left h2 h0
      linarith
    _ = _ := by ring

theorem err_diff (h0 : 0 ≤ u) {g t p q P Q A B k : ℝ} (hp : |p - P| ≤ g * A + t) (hq : |q - Q| ≤ g * B + t) (hA : |P| ≤ A) (hB : |Q| ≤ B)
    (hk : |k - (p - q)| ≤ u * |p - q|) : |k - (P - Q)| ≤ ((1 + u) * (1 + g) - 1) * (A + B) + 2 * (1 + u) * t := by
  have := err_sum h0 (q := -q) (Q := -Q) (k := k) hp (by rw [← abs_neg]; convert hq using 2; ring) hA (by rwa [abs_neg])
    (by rwa [← sub_eq_add_neg])
  rwa [← sub_eq_add_neg] at this

/-- One component of the sum of the two cross products. -/
theorem err_comp (R : Rounded F u η) (h0 : 0 ≤ u) {a1 a2 c1 c2 d1 d2 : F} {α1 α2 γ1 γ2 δ1 δ2 : ℝ}
    (hf : R.fin (((a1 *ₚ c2) -ₚ (a2 *ₚ c1)) +ₚ ((c1 *ₚ d2) -ₚ (c2 *ₚ d1))))
    (ha1 : R.fin a1 → |R.val a1 - α1| ≤ u * |α1|) (ha2 : R.fin a2 → |R.val a2 - α2| ≤ u * |α2|)
    (hc1 : R.fin c1 → |R.val c1 - γ1| ≤ u * |γ1|) (hc2 : R.fin c2 → |R.val c2 - γ2| ≤ u * |γ2|)
    (hd1 : R.fin d1 → |R.val d1 - δ1| ≤ u * |δ1|) (hd2 : R.fin d2 → |R.val d2 - δ2| ≤ u * |δ2|) :
    |R.val (((a1 *ₚ c2) -ₚ (a2 *ₚ c1)) +ₚ ((c1 *ₚ d2) -ₚ (c2 *ₚ d1))) - ((α1 * γ2 - α2 * γ1) + (γ1 * δ2 - γ2 * δ1))| ≤
      ((1 + u) ^ 5 - 1) * ((|α1 * γ2| + |α2 * γ1|) + (|γ1 * δ2| + |γ2 * δ1|)) + 4 * (1 + u) ^ 2 * η := by
  obtain ⟨f1, f2, e⟩ := R.add _ _ hf
  obtain ⟨f3, f4, e1⟩ := R.sub _ _ f1
  obtain ⟨f5, f6, e2⟩ := R.sub _ _ f2
  obtain ⟨g1, g2, m1⟩ := R.mul _ _ f3
  obtain ⟨g3, g4, m2⟩ := R.mul _ _ f4
  obtain ⟨g5, g6, m3⟩ := R.mul _ _ f5
  obtain ⟨g7, g8, m4⟩ := R.mul _ _ f6
  have p1 := err_prod h0 (ha1 g1) (hc2 g2) m1
  have p2 := err_prod h0 (ha2 g3) (hc1 g4) m2
  have p3 := err_prod h0 (hc1 g5) (hd2 g6) m3
  have p4 := err_prod h0 (hc2 g7) (hd1 g8) m4
  have q1 := err_diff h0 p1 p2 (le_refl _) (le_refl _) e1
  have q2 := err_diff h0 p3 p4 (le_refl _) (le_refl _) e2
  have := err_sum h0 q1 q2 (abs_sub _ _) (abs_sub _ _) e
  refine this.trans (le_of_eq ?_)
  ring

/-- The computed square of the length. -/
theorem err_dot (R : Rounded F u η) (h0 : 0 ≤ u) (hη : 0 ≤ η) {x y z : F} (hf : R.fin (x *ₚ x +ₚ y *ₚ y +ₚ z *ₚ z)) :
    |R.val (x *ₚ x +ₚ y *ₚ y +ₚ z *ₚ z) - (R.val x * R.val x + R.val y * R.val y + R.val z * R.val z)| ≤
      ((1 + u) ^ 3 - 1) * (R.val x * R.val x + R.val y * R.val y + R.val z * R.val z) + 4 * (1 + u) ^ 2 * η := by
  obtain ⟨f1, f2, e⟩ := R.add _ _ hf
  obtain ⟨f3, f4, e1⟩ := R.add _ _ f1
  obtain ⟨-, -, m1⟩ := R.mul _ _ f3
  obtain ⟨-, -, m2⟩ := R.mul _ _ f4
  obtain ⟨-, -, m3⟩ := R.mul _ _ f2
  have nx := mul_self_nonneg (R.val x)
  have ny := mul_self_nonneg (R.val y)
  have nz := mul_self_nonneg (R.val z)
  rw [abs_of_nonneg nx] at m1
  rw [abs_of_nonneg ny] at m2
  rw [abs_of_nonneg nz] at m3
  have q1 := err_sum h0 m1 m2 (le_of_eq (abs_of_nonneg nx)) (le_of_eq (abs_of_nonneg ny)) e1
  have m3' : |R.val (z *ₚ z) - R.val z * R.val z| ≤ ((1 + u) * (1 + u) - 1) * (R.val z * R.val z) + 2 * (1 + u) * η := by
    refine m3.trans ?_
    nlinarith [mul_nonneg h0 nz, mul_nonneg (mul_nonneg h0 h0) nz, mul_nonneg h0 hη]
  have := err_sum h0 q1 m3' (by rw [abs_of_nonneg (by linarith)]) (le_of_eq (abs_of_nonneg nz)) e
  refine this.trans (le_of_eq ?_)
  ring

/-! ## Lengths of vectors -/

noncomputable def len3 (x y z : ℝ) : ℝ := √(x * x + y * y + z * z)

theorem len3_eq (x y z : ℝ) : len3 x y z = ‖(!₂[x, y, z] : E3)‖ := by
  rw [EuclideanSpace.norm_eq, len3, Fin.sum_univ_three]
  simp [sq]

theorem len3_nonneg (x y z : ℝ) : 0 ≤ len3 x y z := Real.sqrt_nonneg _

theorem len3_sq (x y z : ℝ) : len3 x y z * len3 x y z = x * x + y * y + z * z :=
  Real.mul_self_sqrt (by nlinarith [mul_self_nonneg x, mul_self_nonneg y, mul_self_nonneg z])

theorem len3_add (x y z x' y' z' : ℝ) : len3 (x + x') (y + y') (z + z') ≤ len3 x y z + len3 x' y' z' := by
  rw [len3_eq, len3_eq, len3_eq]
  have : (!₂[x + x', y + y', z + z'] : E3) = !₂[x, y, z] + !₂[x', y', z'] := by
    ext i; fin_cases i <;> rfl
  rw [this]
  exact norm_add_le _ _

theorem len3_mono {x y z x' y' z' : ℝ} (hx : |x| ≤ x') (hy : |y| ≤ y') (hz : |z| ≤ z') : len3 x y z ≤ len3 x' y' z' := by
  refine Real.sqrt_le_sqrt ?_
  have h1 := abs_mul_abs_self x
  have h2 := abs_mul_abs_self y
  have h3 := abs_mul_abs_self z
  have p1 := abs_nonneg x
  have p2 := abs_nonneg y
  have p3 := abs_nonneg z
  nlinarith

theorem len3_mul (g x y z : ℝ) (h : 0 ≤ g) : len3 (g * x) (g * y) (g * z) = g * len3 x y z := by
  unfold len3
  rw [show g * x * (g * x) + g * y * (g * y) + g * z * (g * z) = g ^ 2 * (x * x + y * y + z * z) by ring, Real.sqrt_mul (by positivity),
    Real.sqrt_sq h]

/-- The length of a vector of products. -/
theorem len3_products (a1 a2 a3 c1 c2 c3 : ℝ) :
    len3 (|a2 * c3| + |a3 * c2|) (|a3 * c1| + |a1 * c3|) (|a1 * c2| + |a2 * c1|) ≤ 1.415 * (len3 a1 a2 a3 * len3 c1 c2 c3) := by
  unfold len3
  rw [← Real.sqrt_mul (by nlinarith [mul_self_nonneg a1, mul_self_nonneg a2, mul_self_nonneg a3])]
  rw [show (1.415 : ℝ) = √(1.415 ^ 2) by rw [Real.sqrt_sq (by norm_num)], ← Real.sqrt_mul (by norm_num)]
  refine Real.sqrt_le_sqrt ?_
  have key : ∀ p q : ℝ, (|p| + |q|) * (|p| + |q|) ≤ 2 * (p * p + q * q) := by
    intro p q
    nlinarith [abs_mul_abs_self p, abs_mul_abs_self q, mul_self_nonneg (|p| - |q|)]
  have k1 := key (a2 * c3) (a3 * c2)
  have k2 := key (a3 * c1) (a1 * c3)
  have k3 := key (a1 * c2) (a2 * c1)
  have s : (a2 * c3) * (a2 * c3) + (a3 * c2) * (a3 * c2) + ((a3 * c1) * (a3 * c1) + (a1 * c3) * (a1 * c3)) +
      ((a1 * c2) * (a1 * c2) + (a2 * c1) * (a2 * c1)) ≤ (a1 * a1 + a2 * a2 + a3 * a3) * (c1 * c1 + c2 * c2 + c3 * c3) := by
    nlinarith [mul_self_nonneg (a1 * c1), mul_self_nonneg (a2 * c2), mul_self_nonneg (a3 * c3)]
  have n : 0 ≤ (a1 * a1 + a2 * a2 + a3 * a3) * (c1 * c1 + c2 * c2 + c3 * c3) :=
    mul_nonneg (by nlinarith [mul_self_nonneg a1, mul_self_nonneg a2, mul_self_nonneg a3])
      (by nlinarith [mul_self_nonneg c1, mul_self_nonneg c2, mul_self_nonneg c3])
  nlinarith

theorem len3_cross (a1 a2 a3 c1 c2 c3 : ℝ) :
    len3 (a2 * c3 - a3 * c2) (a3 * c1 - a1 * c3) (a1 * c2 - a2 * c1) ≤ len3 a1 a2 a3 * len3 c1 c2 c3 := by
  unfold len3
  rw [← Real.sqrt_mul (by nlinarith [mul_self_nonneg a1, mul_self_nonneg a2, mul_self_nonneg a3])]
  refine Real.sqrt_le_sqrt ?_
  nlinarith [mul_self_nonneg (a1 * c1 + a2 * c2 + a3 * c3)]

/-- Vectors that are componentwise close have nearly the same length. -/
theorem len3_close {x y z x' y' z' g t w1 w2 w3 : ℝ} (hg : 0 ≤ g) (ht : 0 ≤ t) (hx : |x' - x| ≤ g * w1 + t) (hy : |y' - y| ≤ g * w2 + t)
    (hz : |z' - z| ≤ g * w3 + t) : |len3 x' y' z' - len3 x y z| ≤ g * len3 w1 w2 w3 + 1.74 * t := by
  have h1 : len3 (x' - x) (y' - y) (z' - z) ≤ g * len3 w1 w2 w3 + 1.74 * t := by
    refine (len3_mono hx hy hz).trans ((len3_add _ _ _ _ _ _).trans ?_)
    rw [len3_mul g _ _ _ hg]
    have : len3 t t t ≤ 1.74 * t := by
      unfold len3
      rw [Real.sqrt_le_left (by positivity)]
      nlinarith
    linarith
  have h2 := len3_add x y z (x' - x) (y' - y) (z' - z)
  have h3 := len3_add x' y' z' (x - x') (y - y') (z - z')
  have h4 : len3 (x - x') (y - y') (z - z') = len3 (x' - x) (y' - y) (z' - z) := by
    unfold len3; congr 1; ring
  rw [add_sub_cancel, add_sub_cancel, add_sub_cancel] at h2 h3
  rw [abs_le]
  constructor <;> linarith

/-! ## The area of a cell -/

/-- The computed length. -/
theorem err_norm (h0 : 0 ≤ u) (h1 : u ≤ 1 / 1000) (hη : 0 ≤ η) {s r N : ℝ} (hN : 0 ≤ N) (hs0 : 0 ≤ s)
    (hs : |s - N * N| ≤ ((1 + u) ^ 3 - 1) * (N * N) + 4 * (1 + u) ^ 2 * η) (hr : |r - √s| ≤ u * √s) :
    r ≤ (1 + u) ^ 3 * N + 2 * (1 + u) ^ 2 * √η ∧ (1 - u) ^ 3 * N - 2 * (1 + u) ^ 2 * √η ≤ r := by
  have hsη := Real.mul_self_sqrt hη
  have pη := Real.sqrt_nonneg η
  obtain ⟨s1, s2⟩ := abs_le.1 hs
  obtain ⟨r1, r2⟩ := abs_le.1 hr
  have hss := Real.mul_self_sqrt hs0
  have ps := Real.sqrt_nonneg s
  have nn := mul_self_nonneg N
  have up : √s ≤ (1 + u) ^ 2 * N + 2 * (1 + u) * √η := by
    rw [Real.sqrt_le_left (by positivity)]
    have : s ≤ (1 + u) ^ 3 * (N * N) + 4 * (1 + u) ^ 2 * (√η * √η) := by rw [hsη]; nlinarith
    have e : (1 + u) ^ 3 * (N * N) ≤ (1 + u) ^ 4 * (N * N) := by
      refine mul_le_mul_of_nonneg_right ?_ nn
      exact pow_le_pow_right₀ (by linarith) (by norm_num)
    have c : 0 ≤ (1 + u) ^ 2 * N * (2 * (1 + u) * √η) := by positivity
    nlinarith
  have lo : (1 - u) ^ 2 * N - 2 * (1 + u) * √η ≤ √s := by
    by_contra hlt
    push Not at hlt
    have hb : 0 ≤ 2 * (1 + u) * √η := by positivity
    have k1 : 0 ≤ (1 - u) ^ 2 * N - 2 * (1 + u) * √η := ps.trans hlt.le
    have k2 : s < ((1 - u) ^ 2 * N - 2 * (1 + u) * √η) * ((1 - u) ^ 2 * N - 2 * (1 + u) * √η) := by
      rw [← hss]; exact mul_self_lt_mul_self ps hlt
    have k3 : ((1 - u) ^ 2 * N - 2 * (1 + u) * √η) * ((1 - u) ^ 2 * N - 2 * (1 + u) * √η) ≤
        (1 - u) ^ 4 * (N * N) - 4 * (1 + u) ^ 2 * (√η * √η) := by
      nlinarith [mul_nonneg k1 hb]
    have k4 : (1 - u) ^ 4 ≤ 2 - (1 + u) ^ 3 := by
      nlinarith [mul_nonneg h0 (sub_nonneg.2 h1), mul_nonneg (mul_nonneg h0 h0) (sub_nonneg.2 h1), mul_nonneg (mul_nonneg h0 h0) h0,
        mul_nonneg (mul_nonneg (mul_nonneg h0 h0) h0) (sub_nonneg.2 h1)]
    have k5 := mul_le_mul_of_nonneg_right k4 nn
    rw [hsη] at k3
    nlinarith
  constructor
  · calc r ≤ (1 + u) * √s := by linarith
      _ ≤ (1 + u) * ((1 + u) ^ 2 * N + 2 * (1 + u) * √η) := by gcongr
      _ = _ := by ring
  · have : (1 - u) * ((1 - u) ^ 2 * N - 2 * (1 + u) * √η) ≤ (1 - u) * √s := mul_le_mul_of_nonneg_left lo (by linarith)
    have c : 0 ≤ 4 * u * (1 + u) * √η := by positivity
    nlinarith

/-- Area of the quadrilateral `ABCD` from its sides and diagonals (Bretschneider's formula), as in C14. -/
noncomputable def Spec.flatArea (A B C D : V3 ℝ) : ℝ :=
  √(4 * Spec.dist2 A C * Spec.dist2 B D - (Spec.dist2 A B + Spec.dist2 C D - Spec.dist2 B C - Spec.dist2 A D) ^ 2) / 4

theorem dist_eq_len3 (A B : V3 ℝ) : Spec.chord A B = len3 (B.x - A.x) (B.y - A.y) (B.z - A.z) := by
  unfold Spec.chord Spec.dist2 len3; congr 1; ring

theorem flatArea_eq_len3 (A B C D : V3 ℝ) : Spec.flatArea A B C D =
    len3 (((B.y - A.y) * (C.z - A.z) - (B.z - A.z) * (C.y - A.y)) + ((C.y - A.y) * (D.z - A.z) - (C.z - A.z) * (D.y - A.y)))
      (((B.z - A.z) * (C.x - A.x) - (B.x - A.x) * (C.z - A.z)) + ((C.z - A.z) * (D.x - A.x) - (C.x - A.x) * (D.z - A.z)))
      (((B.x - A.x) * (C.y - A.y) - (B.y - A.y) * (C.x - A.x)) + ((C.x - A.x) * (D.y - A.y) - (C.y - A.y) * (D.x - A.x))) / 2 := by
  unfold Spec.flatArea
  rw [← C14_bretschneider]
  unfold pquadCell
  simp only [V3.norm, V3.dot, V3.cross, V3.add, V3.sub, add_r, mul_r, sub_r, len3]
  show 1 / 2 * √_ = _
  ring

/-- Half the computed length of a computed vector. -/
theorem err_half (R : Rounded F u η) (h0 : 0 ≤ u) (h1 : u ≤ 1 / 1000) (hη : 0 ≤ η) (n : V3 F) (hf : R.fin (Arith.half *ₚ n.norm)) :
    R.fin n.x ∧ R.fin n.y ∧ R.fin n.z ∧
      R.val (Arith.half *ₚ n.norm) ≤ (1 + u) ^ 4 * len3 (R.val n.x) (R.val n.y) (R.val n.z) / 2 + (1 + u) ^ 3 * √η + η ∧
      (1 - u) ^ 4 * len3 (R.val n.x) (R.val n.y) (R.val n.z) / 2 - (1 + u) ^ 3 * √η - η ≤ R.val (Arith.half *ₚ n.norm) := by
  unfold V3.norm V3.dot at hf ⊢
  obtain ⟨-, f1, eh⟩ := R.mul _ _ hf
  obtain ⟨f2, hs0, er⟩ := R.sqrt _ f1
  have ed := err_dot R h0 hη f2
  obtain ⟨f3, f4, -⟩ := R.add _ _ f2
  obtain ⟨f5, f6, -⟩ := R.add _ _ f3
  rw [R.half] at eh
  rw [← len3_sq] at ed
  obtain ⟨n1, n2⟩ := err_norm h0 h1 hη (len3_nonneg _ _ _) hs0 ed er
  refine ⟨(R.mul _ _ f5).1, (R.mul _ _ f6).1, (R.mul _ _ f4).1, ?_⟩
  have hr0 : 0 ≤ R.val (Arith.sqrt (n.x *ₚ n.x +ₚ n.y *ₚ n.y +ₚ n.z *ₚ n.z)) := by
    have := (abs_le.1 er).1
    have := mul_nonneg (show 0 ≤ 1 - u by linarith) (Real.sqrt_nonneg (R.val (n.x *ₚ n.x +ₚ n.y *ₚ n.y +ₚ n.z *ₚ n.z)))
    linarith
  generalize R.val (Arith.sqrt (n.x *ₚ n.x +ₚ n.y *ₚ n.y +ₚ n.z *ₚ n.z)) = S at *
  generalize len3 (R.val n.x) (R.val n.y) (R.val n.z) = N at *
  rw [abs_of_nonneg (by linarith : (0 : ℝ) ≤ 1 / 2 * S)] at eh
  obtain ⟨e1, e2⟩ := abs_le.1 eh
  have pη := Real.sqrt_nonneg η
  constructor
  · have := mul_le_mul_of_nonneg_left n1 (show 0 ≤ 1 + u by linarith)
    nlinarith
  · have := mul_le_mul_of_nonneg_left n2 (show 0 ≤ 1 - u by linarith)
    have c : 0 ≤ 2 * u * (1 + u) ^ 2 * √η := by positivity
    nlinarith

/-- The bounds put together. -/
theorem err_final (h0 : 0 ≤ u) (h1 : u ≤ 1 / 1000) (hη : 0 ≤ η) (hη1 : η ≤ 1) {v N N' W L : ℝ} (hN : 0 ≤ N) (hNL : N ≤ L) (hW : W ≤ 1.415 * L)
    (hu : v ≤ (1 + u) ^ 4 * N' / 2 + (1 + u) ^ 3 * √η + η) (hl : (1 - u) ^ 4 * N' / 2 - (1 + u) ^ 3 * √η - η ≤ v)
    (hc : |N' - N| ≤ ((1 + u) ^ 5 - 1) * W + 1.74 * (4 * (1 + u) ^ 2 * η)) : |v - N / 2| ≤ 6 * u * L + 6 * √η := by
  have pη := Real.sqrt_nonneg η
  have sη := Real.mul_self_sqrt hη
  have hη' : η ≤ √η := by
    have : √η ≤ 1 := Real.sqrt_le_one.2 hη1
    nlinarith
  have hL : 0 ≤ L := hN.trans hNL
  have p2 : u * u ≤ u / 1000 := by nlinarith
  have p3 : u * u * u ≤ u / 1000000 := by nlinarith [mul_nonneg h0 h0]
  have p4 : u * u * u * u ≤ u / 1000000000 := by nlinarith [mul_nonneg (mul_nonneg h0 h0) h0]
  have p5 : u * u * u * u * u ≤ u / 1000000000000 := by nlinarith [mul_nonneg (mul_nonneg (mul_nonneg h0 h0) h0) h0]
  have n2 : 0 ≤ u * u := by positivity
  have n3 : 0 ≤ u * u * u := by positivity
  have n4 : 0 ≤ u * u * u * u := by positivity
  have e2 : (1 + u) ^ 2 ≤ 1.0021 := by nlinarith
  have e3 : (1 + u) ^ 3 ≤ 1.0031 := by nlinarith
  have e4 : (1 + u) ^ 4 ≤ 1 + 4.01 * u := by nlinarith
  have e4' : (1 + u) ^ 4 ≤ 1.0041 := by linarith
  have e5 : (1 + u) ^ 5 - 1 ≤ 5.02 * u := by nlinarith
  have e5' : 0 ≤ (1 + u) ^ 5 - 1 := by
    have := one_le_pow₀ (n := 5) (show 1 ≤ 1 + u by linarith); linarith
  have l4 : 1 - 4 * u ≤ (1 - u) ^ 4 := by nlinarith
  have l4' : (1 - u) ^ 4 ≤ 1 := pow_le_one₀ (by linarith) (by linarith)
  have l40 : 0 ≤ (1 - u) ^ 4 := by positivity
  have E : ((1 + u) ^ 5 - 1) * W + 1.74 * (4 * (1 + u) ^ 2 * η) ≤ 7.1034 * (u * L) + 6.975 * √η := by
    have a : ((1 + u) ^ 5 - 1) * W ≤ 5.02 * u * (1.415 * L) :=
      (mul_le_mul_of_nonneg_left hW e5').trans (mul_le_mul_of_nonneg_right e5 (by linarith))
    have b : (1 + u) ^ 2 * η ≤ 1.0021 * √η := mul_le_mul e2 hη' hη (by norm_num)
    have := mul_nonneg h0 hL
    nlinarith
  obtain ⟨c1, c2⟩ := abs_le.1 hc
  have uL := mul_nonneg h0 hL
  have uN : u * N ≤ u * L := mul_le_mul_of_nonneg_left hNL h0
  have t3 : (1 + u) ^ 3 * √η ≤ 1.0031 * √η := mul_le_mul_of_nonneg_right e3 pη
  have q0 : 0 ≤ (1 + u) ^ 4 := by positivity
  generalize (1 + u) ^ 5 = q5 at *
  generalize (1 + u) ^ 2 = q2 at *
  generalize (1 + u) ^ 3 = q3 at *
  generalize (1 + u) ^ 4 = q4 at *
  generalize (1 - u) ^ 4 = r4 at *
  obtain ⟨X, hX⟩ : ∃ X, 7.1034 * (u * L) + 6.975 * √η = X := ⟨_, rfl⟩
  have X0 : 0 ≤ X := by rw [← hX]; positivity
  rw [hX] at E
  have a1 : r4 * (N - X) ≤ r4 * N' := mul_le_mul_of_nonneg_left (by linarith) l40
  have b1 : (1 - 4 * u) * N ≤ r4 * N := mul_le_mul_of_nonneg_right l4 hN
  have d1 : r4 * X ≤ 1 * X := mul_le_mul_of_nonneg_right l4' X0
  have a2 : q4 * N' ≤ q4 * (N + X) := mul_le_mul_of_nonneg_left (by linarith) q0
  have b2 : q4 * N ≤ (1 + 4.01 * u) * N := mul_le_mul_of_nonneg_right e4 hN
  have d2 : q4 * X ≤ 1.0041 * X := mul_le_mul_of_nonneg_right e4' X0
  rw [mul_sub] at a1
  rw [mul_add] at a2
  rw [sub_mul] at b1
  rw [add_mul] at b2
  rw [abs_le]
  constructor <;> linarith

/-- **C118** (planar cell areas): if the result is finite, the computed area of a cell differs from the exact area of the cell with the given corners by
at most `6 u |AC| (|AB| + |AD|)`, apart from `6 √η` for underflow. -/
theorem C118_planar_area_error (R : Rounded F u η) (h0 : 0 ≤ u) (h1 : u ≤ 1 / 1000) (hη : 0 ≤ η) (hη1 : η ≤ 1) (A B C D : V3 F)
    (hf : R.fin (pquadCell A B C D)) :
    |R.val (pquadCell A B C D) - Spec.flatArea (R.pt A) (R.pt B) (R.pt C) (R.pt D)| ≤
      6 * u * (Spec.chord (R.pt A) (R.pt C) * (Spec.chord (R.pt A) (R.pt B) + Spec.chord (R.pt A) (R.pt D))) + 6 * √η := by
  have hsub : ∀ x y : F, R.fin (x -ₚ y) → |R.val (x -ₚ y) - (R.val x - R.val y)| ≤ u * |R.val x - R.val y| := fun x y h => (R.sub x y h).2.2
  obtain ⟨fx, fy, fz, hu, hl⟩ := err_half R h0 h1 hη _ hf
  have ex := err_comp R h0 fx (hsub _ _) (hsub _ _) (hsub _ _) (hsub _ _) (hsub _ _) (hsub _ _)
  have ey := err_comp R h0 fy (hsub _ _) (hsub _ _) (hsub _ _) (hsub _ _) (hsub _ _) (hsub _ _)
  have ez := err_comp R h0 fz (hsub _ _) (hsub _ _) (hsub _ _) (hsub _ _) (hsub _ _) (hsub _ _)
  have g0 : 0 ≤ (1 + u) ^ 5 - 1 := by
    have := one_le_pow₀ (n := 5) (show 1 ≤ 1 + u by linarith); linarith
  have ec := len3_close g0 (by positivity) ex ey ez
  rw [flatArea_eq_len3]
  refine err_final h0 h1 hη hη1 (len3_nonneg _ _ _) ?_ ?_ hu hl ec
  · refine (len3_add _ _ _ _ _ _).trans ?_
    rw [dist_eq_len3, dist_eq_len3, dist_eq_len3, mul_add]
    refine add_le_add ((len3_cross _ _ _ _ _ _).trans (le_of_eq (mul_comm _ _))) ?_
    exact len3_cross _ _ _ _ _ _
  · refine (len3_add _ _ _ _ _ _).trans ?_
    rw [dist_eq_len3, dist_eq_len3, dist_eq_len3, mul_add, mul_add]
    refine add_le_add ((len3_products _ _ _ _ _ _).trans (le_of_eq (by simp only [Rounded.pt]; ring))) ?_
    exact len3_products _ _ _ _ _ _

/-! ## Wrong corners -/

theorem flatArea_eq_diagonals (A B C D : V3 ℝ) : Spec.flatArea A B C D =
    len3 ((C.y - A.y) * (D.z - B.z) - (C.z - A.z) * (D.y - B.y)) ((C.z - A.z) * (D.x - B.x) - (C.x - A.x) * (D.z - B.z))
      ((C.x - A.x) * (D.y - B.y) - (C.y - A.y) * (D.x - B.x)) / 2 := by
  rw [flatArea_eq_len3]
  congr 2 <;> ring

/-- **C118** (corners): corners that are off by at most `ε` change the area of a cell by at most `ε (|AC| + |BD|) + 2 ε²`. -/
theorem C118_corner_error {ε : ℝ} (A B C D A' B' C' D' : V3 ℝ) (hA : Spec.chord A A' ≤ ε) (hB : Spec.chord B B' ≤ ε) (hC : Spec.chord C C' ≤ ε)
    (hD : Spec.chord D D' ≤ ε) :
    |Spec.flatArea A' B' C' D' - Spec.flatArea A B C D| ≤ ε * (Spec.chord A C + Spec.chord B D) + 2 * ε ^ 2 := by
  have swap : ∀ p q : V3 ℝ, Spec.chord p q = Spec.chord q p := by
    intro p q; unfold Spec.chord Spec.dist2; congr 1; ring
  -- the diagonals change by at most `2 ε`
  have dd : ∀ P Q P' Q' : V3 ℝ, Spec.chord P P' ≤ ε → Spec.chord Q Q' ≤ ε →
      len3 ((Q'.x - P'.x) - (Q.x - P.x)) ((Q'.y - P'.y) - (Q.y - P.y)) ((Q'.z - P'.z) - (Q.z - P.z)) ≤ 2 * ε := by
    intro P Q P' Q' hP hQ
    rw [swap, dist_eq_len3] at hP
    rw [dist_eq_len3] at hQ
    have := len3_add (P.x - P'.x) (P.y - P'.y) (P.z - P'.z) (Q'.x - Q.x) (Q'.y - Q.y) (Q'.z - Q.z)
    have e : ∀ a b c d : ℝ, (a - b) - (c - d) = (d - b) + (a - c) := by intros; ring
    rw [e, e, e]
    linarith
  have h1 := dd A C A' C' hA hC
  have h2 := dd B D B' D' hB hD
  have ε0 : 0 ≤ ε := (Real.sqrt_nonneg _).trans hA
  rw [flatArea_eq_diagonals, flatArea_eq_diagonals, dist_eq_len3 A C, dist_eq_len3 B D]
  generalize C.x - A.x = a1 at *
  generalize C.y - A.y = a2 at *
  generalize C.z - A.z = a3 at *
  generalize D.x - B.x = b1 at *
  generalize D.y - B.y = b2 at *
  generalize D.z - B.z = b3 at *
  obtain ⟨e1, he1⟩ : ∃ e, e = C'.x - A'.x - a1 := ⟨_, rfl⟩
  obtain ⟨e2, he2⟩ : ∃ e, e = C'.y - A'.y - a2 := ⟨_, rfl⟩
  obtain ⟨e3, he3⟩ : ∃ e, e = C'.z - A'.z - a3 := ⟨_, rfl⟩
  obtain ⟨f1, hf1⟩ : ∃ e, e = D'.x - B'.x - b1 := ⟨_, rfl⟩
  obtain ⟨f2, hf2⟩ : ∃ e, e = D'.y - B'.y - b2 := ⟨_, rfl⟩
  obtain ⟨f3, hf3⟩ : ∃ e, e = D'.z - B'.z - b3 := ⟨_, rfl⟩
  rw [← he1, ← he2, ← he3] at h1
  rw [← hf1, ← hf2, ← hf3] at h2
  rw [show C'.x - A'.x = a1 + e1 by linarith, show C'.y - A'.y = a2 + e2 by linarith, show C'.z - A'.z = a3 + e3 by linarith,
    show D'.x - B'.x = b1 + f1 by linarith, show D'.y - B'.y = b2 + f2 by linarith, show D'.z - B'.z = b3 + f3 by linarith]
  -- the change of the cross product
  have la := len3_nonneg a1 a2 a3
  have lb := len3_nonneg b1 b2 b3
  have le := len3_nonneg e1 e2 e3
  have lf := len3_nonneg f1 f2 f3
  have c1 := len3_cross a1 a2 a3 f1 f2 f3
  have c2 := len3_cross e1 e2 e3 b1 b2 b3
  have c3 := len3_cross e1 e2 e3 f1 f2 f3
  have k1 := len3_add (a2 * f3 - a3 * f2) (a3 * f1 - a1 * f3) (a1 * f2 - a2 * f1) (e2 * b3 - e3 * b2) (e3 * b1 - e1 * b3) (e1 * b2 - e2 * b1)
  have k2 := len3_add ((a2 * f3 - a3 * f2) + (e2 * b3 - e3 * b2)) ((a3 * f1 - a1 * f3) + (e3 * b1 - e1 * b3))
    ((a1 * f2 - a2 * f1) + (e1 * b2 - e2 * b1)) (e2 * f3 - e3 * f2) (e3 * f1 - e1 * f3) (e1 * f2 - e2 * f1)
  have tot : len3 ((a2 * f3 - a3 * f2) + (e2 * b3 - e3 * b2) + (e2 * f3 - e3 * f2)) ((a3 * f1 - a1 * f3) + (e3 * b1 - e1 * b3) + (e3 * f1 - e1 * f3))
      ((a1 * f2 - a2 * f1) + (e1 * b2 - e2 * b1) + (e1 * f2 - e2 * f1)) ≤ 2 * ε * (len3 a1 a2 a3 + len3 b1 b2 b3) + 4 * ε ^ 2 := by
    have m1 : len3 a1 a2 a3 * len3 f1 f2 f3 ≤ len3 a1 a2 a3 * (2 * ε) := mul_le_mul_of_nonneg_left h2 la
    have m2 : len3 e1 e2 e3 * len3 b1 b2 b3 ≤ 2 * ε * len3 b1 b2 b3 := mul_le_mul_of_nonneg_right h1 lb
    have m3 : len3 e1 e2 e3 * len3 f1 f2 f3 ≤ 2 * ε * (2 * ε) := mul_le_mul h1 h2 lf (by linarith)
    nlinarith
  have close : ∀ x y z x' y' z' : ℝ, |len3 x' y' z' - len3 x y z| ≤ len3 (x' - x) (y' - y) (z' - z) := by
    intro x y z x' y' z'
    have h2 := len3_add x y z (x' - x) (y' - y) (z' - z)
    have h3 := len3_add x' y' z' (x - x') (y - y') (z - z')
    have h4 : len3 (x - x') (y - y') (z - z') = len3 (x' - x) (y' - y) (z' - z) := by
      unfold len3; congr 1; ring
    rw [add_sub_cancel, add_sub_cancel, add_sub_cancel] at h2 h3
    rw [abs_le]
    constructor <;> linarith
  have fin := close (a2 * b3 - a3 * b2) (a3 * b1 - a1 * b3) (a1 * b2 - a2 * b1) ((a2 + e2) * (b3 + f3) - (a3 + e3) * (b2 + f2))
    ((a3 + e3) * (b1 + f1) - (a1 + e1) * (b3 + f3)) ((a1 + e1) * (b2 + f2) - (a2 + e2) * (b1 + f1))
  rw [show (a2 + e2) * (b3 + f3) - (a3 + e3) * (b2 + f2) - (a2 * b3 - a3 * b2) =
      (a2 * f3 - a3 * f2) + (e2 * b3 - e3 * b2) + (e2 * f3 - e3 * f2) by ring,
    show (a3 + e3) * (b1 + f1) - (a1 + e1) * (b3 + f3) - (a3 * b1 - a1 * b3) =
      (a3 * f1 - a1 * f3) + (e3 * b1 - e1 * b3) + (e3 * f1 - e1 * f3) by ring,
    show (a1 + e1) * (b2 + f2) - (a2 + e2) * (b1 + f1) - (a1 * b2 - a2 * b1) =
      (a1 * f2 - a2 * f1) + (e1 * b2 - e2 * b1) + (e1 * f2 - e2 * f1) by ring] at fin
  rw [← sub_div, abs_div, abs_of_pos (show (0 : ℝ) < 2 by norm_num)]
  linarith

theorem flatArea_le (A B C D : V3 ℝ) : Spec.flatArea A B C D ≤ Spec.chord A C * Spec.chord B D / 2 := by
  rw [flatArea_eq_diagonals, dist_eq_len3, dist_eq_len3]
  have := len3_cross (C.x - A.x) (C.y - A.y) (C.z - A.z) (D.x - B.x) (D.y - B.y) (D.z - B.z)
  linarith

theorem flatArea_nonneg (A B C D : V3 ℝ) : 0 ≤ Spec.flatArea A B C D := by
  unfold Spec.flatArea; positivity

/-- The distance of two points that are off by at most `ε`. -/
theorem dist_off {ε : ℝ} {P Q P' Q' : V3 ℝ} (hP : Spec.chord P P' ≤ ε) (hQ : Spec.chord Q Q' ≤ ε) : Spec.chord P' Q' ≤ Spec.chord P Q + 2 * ε := by
  have swap : ∀ p q : V3 ℝ, Spec.chord p q = Spec.chord q p := by
    intro p q; unfold Spec.chord Spec.dist2; congr 1; ring
  have tri : ∀ p q r : V3 ℝ, Spec.chord p r ≤ Spec.chord p q + Spec.chord q r := by
    intro p q r
    rw [dist_eq_len3, dist_eq_len3, dist_eq_len3]
    have := len3_add (q.x - p.x) (q.y - p.y) (q.z - p.z) (r.x - q.x) (r.y - q.y) (r.z - q.z)
    convert this using 2 <;> ring
  have h1 := tri P' P Q'
  have h2 := tri P Q Q'
  rw [swap P' P] at h1
  linarith

/-- Multiplication by the square of the radius. -/
theorem err_scale (h0 : 0 ≤ u) (h1 : u ≤ 1 / 1000) (hu : η ≤ u) {t V w A a E : ℝ} (ha : 1 ≤ a) (fn : 0 ≤ A) (E0 : 0 ≤ E)
    (etot' : |V - A| ≤ E) (ea : |w - a * a| ≤ u * |a * a| + η) (em : |t - V * w| ≤ u * |V * w| + η) :
    |t - a ^ 2 * A| ≤ a ^ 2 * (1.01 * E + 3.01 * u * A) + η := by
  have a2 : 1 ≤ a ^ 2 := by nlinarith
  have ew : |w - a ^ 2| ≤ 2 * u * a ^ 2 := by
    rw [abs_of_nonneg (mul_self_nonneg a)] at ea
    rw [sq]
    nlinarith
  have wb : |w| ≤ (1 + 2 * u) * a ^ 2 := by
    have := abs_sub_abs_le_abs_sub w (a ^ 2)
    rw [abs_of_nonneg (show 0 ≤ a ^ 2 by positivity)] at this
    linarith
  have e3 : |V * w - A * a ^ 2| ≤ E * ((1 + 2 * u) * a ^ 2) + A * (2 * u * a ^ 2) := by
    calc |V * w - A * a ^ 2| = |(V - A) * w + A * (w - a ^ 2)| := by ring_nf
      _ ≤ |(V - A) * w| + |A * (w - a ^ 2)| := abs_add_le _ _
      _ = |V - A| * |w| + A * |w - a ^ 2| := by rw [abs_mul, abs_mul, abs_of_nonneg fn]
      _ ≤ _ := by gcongr
  have e4 : |V * w| ≤ E * ((1 + 2 * u) * a ^ 2) + A * (2 * u * a ^ 2) + A * a ^ 2 := by
    have := abs_sub_abs_le_abs_sub (V * w) (A * a ^ 2)
    rw [abs_of_nonneg (show 0 ≤ A * a ^ 2 by positivity)] at this
    linarith
  have e5 := abs_sub_le t (V * w) (A * a ^ 2) |>.trans (add_le_add em e3)
  have e6 := mul_le_mul_of_nonneg_left e4 h0
  rw [mul_comm (a ^ 2) A]
  refine e5.trans ?_
  have r1 : u * u ≤ u / 1000 := by nlinarith
  have r2 : (1 + u) * (1 + 2 * u) ≤ 1.01 := by nlinarith
  have r3 : (1 + u) * (2 * u) + u ≤ 3.01 * u := by nlinarith
  have g1 : (1 + u) * (1 + 2 * u) * E ≤ 1.01 * E := mul_le_mul_of_nonneg_right r2 E0
  have g2 : ((1 + u) * (2 * u) + u) * A ≤ 3.01 * u * A := mul_le_mul_of_nonneg_right r3 fn
  have g6 := mul_le_mul_of_nonneg_right (add_le_add g1 g2) (show 0 ≤ a ^ 2 by positivity)
  linarith

/-- **C118** (`areas`): where the edges are so short that the planar formula is used, a finite area that `areas` returns differs from `a²` times the
exact area of the quadrilateral with the four grid points as corners by at most `a² (14 u (ℓ + 2ε)² + 2.1 ε (ℓ + ε) + 8 √η)`, if sides and diagonals of
the quadrilateral are at most `ℓ` on the unit sphere and `lonlat2cart` computes the four points up to `ε`. -/
theorem C118_areas_error {F : Type} [PyFloat F] (R : Rounded F u η) (h0 : 0 ≤ u) (h1 : u ≤ 1 / 1000) (hη : 0 ≤ η) (hu : η ≤ u) (geod : Geod F)
    (ha : 1 ≤ R.val geod.a) (xg yg ex ey : Mat F) (hr : xg.rows = yg.rows) (hc : xg.cols = yg.cols) (hr0 : 0 < xg.rows) (hc0 : 0 < xg.cols)
    (hx : PyFloat.lt (PyFloat.mean (nonzeros ex)) PyFloat.planar = true) (hy : PyFloat.lt (PyFloat.mean (nonzeros ey)) PyFloat.planar = true) :
    ∃ M, areas geod xg yg ex ey = .ok M ∧ M.rows = xg.rows - 1 ∧ M.cols = xg.cols - 1 ∧
      ∀ i j (P : Nat → Nat → V3 ℝ) (ε ℓ : ℝ), i + 1 < xg.rows → j + 1 < xg.cols → R.fin (M.get i j) →
        (∀ k l, P k l = Spec.point (R.val (xg.get k l), R.val (yg.get k l))) →
        (∀ k l, (k = i ∨ k = i + 1) → (l = j ∨ l = j + 1) → Spec.chord (P k l) (R.pt (lonlat2cart1 (xg.get k l) (yg.get k l))) ≤ ε) →
        (∀ k l k' l', (k = i ∨ k = i + 1) → (l = j ∨ l = j + 1) → (k' = i ∨ k' = i + 1) → (l' = j ∨ l' = j + 1) → Spec.chord (P k l) (P k' l') ≤ ℓ) →
        |R.val (M.get i j) - R.val geod.a ^ 2 * Spec.flatArea (P i j) (P (i + 1) j) (P (i + 1) (j + 1)) (P i (j + 1))| ≤
          R.val geod.a ^ 2 * (14 * u * (ℓ + 2 * ε) ^ 2 + 2.1 * ε * (ℓ + ε) + 8 * √η) := by
  obtain ⟨M, e, er, ec, v⟩ := areas_spec geod xg yg ex ey hr.symm hc.symm hr0 hc0
  refine ⟨M, e, er, ec, fun i j P ε ℓ hi hj hf hP hε hℓ => ?_⟩
  have hv := v i j (by omega) (by omega)
  rw [hx, hy] at hv
  simp only [quadOf, Bool.and_self, if_true, pt] at hv
  rw [hv] at hf ⊢
  obtain ⟨f1, f2, em⟩ := R.mul _ _ hf
  obtain ⟨-, -, ea⟩ := R.mul _ _ f2
  have e1 := C118_planar_area_error R h0 h1 hη (by linarith) _ _ _ _ f1
  have A1 := hε i j (.inl rfl) (.inl rfl)
  have B1 := hε (i + 1) j (.inr rfl) (.inl rfl)
  have C1 := hε (i + 1) (j + 1) (.inr rfl) (.inr rfl)
  have D1 := hε i (j + 1) (.inl rfl) (.inr rfl)
  have e2 := C118_corner_error _ _ _ _ _ _ _ _ A1 B1 C1 D1
  have lAC := hℓ i j (i + 1) (j + 1) (.inl rfl) (.inl rfl) (.inr rfl) (.inr rfl)
  have lBD := hℓ (i + 1) j i (j + 1) (.inr rfl) (.inl rfl) (.inl rfl) (.inr rfl)
  have lAB := hℓ i j (i + 1) j (.inl rfl) (.inl rfl) (.inr rfl) (.inl rfl)
  have lAD := hℓ i j i (j + 1) (.inl rfl) (.inl rfl) (.inl rfl) (.inr rfl)
  have dAC := dist_off A1 C1
  have dAB := dist_off A1 B1
  have dAD := dist_off A1 D1
  have fl := flatArea_le (P i j) (P (i + 1) j) (P (i + 1) (j + 1)) (P i (j + 1))
  have fn := flatArea_nonneg (P i j) (P (i + 1) j) (P (i + 1) (j + 1)) (P i (j + 1))
  have ε0 : 0 ≤ ε := (Real.sqrt_nonneg _).trans A1
  have ℓ0 : 0 ≤ ℓ := (Real.sqrt_nonneg _).trans lAC
  have n1 : 0 ≤ Spec.chord (P i j) (P (i + 1) (j + 1)) := Real.sqrt_nonneg _
  have n2 : 0 ≤ Spec.chord (P (i + 1) j) (P i (j + 1)) := Real.sqrt_nonneg _
  have aub : Spec.flatArea (P i j) (P (i + 1) j) (P (i + 1) (j + 1)) (P i (j + 1)) ≤ ℓ ^ 2 / 2 := by
    have := mul_le_mul lAC lBD n2 ℓ0
    nlinarith
  have m1 : Spec.chord (R.pt (lonlat2cart1 (xg.get i j) (yg.get i j))) (R.pt (lonlat2cart1 (xg.get (i + 1) (j + 1)) (yg.get (i + 1) (j + 1)))) *
      (Spec.chord (R.pt (lonlat2cart1 (xg.get i j) (yg.get i j))) (R.pt (lonlat2cart1 (xg.get (i + 1) j) (yg.get (i + 1) j))) +
        Spec.chord (R.pt (lonlat2cart1 (xg.get i j) (yg.get i j))) (R.pt (lonlat2cart1 (xg.get i (j + 1)) (yg.get i (j + 1))))) ≤
      (ℓ + 2 * ε) * (2 * (ℓ + 2 * ε)) :=
    mul_le_mul (by linarith) (by linarith) (add_nonneg (Real.sqrt_nonneg _) (Real.sqrt_nonneg _)) (by linarith)
  have m2 := mul_le_mul_of_nonneg_left m1 (show 0 ≤ 6 * u by linarith)
  have m3 : ε * (Spec.chord (P i j) (P (i + 1) (j + 1)) + Spec.chord (P (i + 1) j) (P i (j + 1))) ≤ ε * (2 * ℓ) :=
    mul_le_mul_of_nonneg_left (by linarith) ε0
  have etot := abs_sub_le (R.val (pquadCell (lonlat2cart1 (xg.get i j) (yg.get i j)) (lonlat2cart1 (xg.get (i + 1) j) (yg.get (i + 1) j))
      (lonlat2cart1 (xg.get (i + 1) (j + 1)) (yg.get (i + 1) (j + 1))) (lonlat2cart1 (xg.get i (j + 1)) (yg.get i (j + 1))))) _
      (Spec.flatArea (P i j) (P (i + 1) j) (P (i + 1) (j + 1)) (P i (j + 1))) |>.trans (add_le_add e1 e2)
  obtain ⟨E, hE⟩ : ∃ E, E = 12 * u * (ℓ + 2 * ε) ^ 2 + 2 * ε * (ℓ + ε) + 6 * √η := ⟨_, rfl⟩
  have etot' := etot.trans (show _ ≤ E by rw [hE]; nlinarith)
  clear e1 e2 etot m1 m2 m3 dAC dAB dAD fl
  have pη := Real.sqrt_nonneg η
  have hη' : η ≤ √η := by
    have : √η ≤ 1 := Real.sqrt_le_one.2 (by linarith)
    nlinarith [Real.mul_self_sqrt hη]
  have E0 : 0 ≤ E := (abs_nonneg _).trans etot'
  refine (err_scale h0 h1 hu ha fn E0 etot' ea em).trans ?_
  generalize Spec.flatArea _ _ _ _ = A at *
  generalize R.val geod.a = a at *
  have a2 : 1 ≤ a ^ 2 := one_le_pow₀ ha
  have g2 : 3.01 * u * A ≤ 3.01 * u * (ℓ ^ 2 / 2) := mul_le_mul_of_nonneg_left aub (by linarith)
  have g3 : η ≤ a ^ 2 * √η := hη'.trans (le_mul_of_one_le_left pη a2)
  have g4 : u * ℓ ^ 2 ≤ u * (ℓ + 2 * ε) ^ 2 := mul_le_mul_of_nonneg_left (pow_le_pow_left₀ ℓ0 (by linarith) 2) h0
  have g5 : 1.01 * E + 3.01 * u * A + √η ≤ 14 * u * (ℓ + 2 * ε) ^ 2 + 2.1 * ε * (ℓ + ε) + 8 * √η := by
    have : 0 ≤ ε * (ℓ + ε) := by positivity
    have : 0 ≤ u * (ℓ + 2 * ε) ^ 2 := by positivity
    rw [hE]
    linarith
  have g6 := mul_le_mul_of_nonneg_left g5 (show 0 ≤ a ^ 2 by positivity)
  linarith

/-! ### A concrete instance: every operation is a thousandth too large -/
section Example

/-- Real numbers and "not a number"; every result is too large by a thousandth. -/
noncomputable local instance exInflated : Arith (Option ℝ) where
  zero := some 0
  half := some (1 / 2)
  two := some 2
  pi := some 3
  add x y := x.bind fun a => y.map fun b => (a + b) * 1.001
  sub x y := x.bind fun a => y.map fun b => (a - b) * 1.001
  mul x y := x.bind fun a => y.map fun b => (a * b) * 1.001
  div x y := x.bind fun a => y.map fun b => (a / b) * 1.001
  cos x := x.map Real.cos
  sin x := x.map Real.sin
  arccos x := x.map Real.arccos
  radians x := x.map fun a => a / 180 * Real.pi
  sqrt x := x.bind fun a => open Classical in if 0 ≤ a then some (√a * 1.001) else none

noncomputable def exInflatedR : Rounded (Option ℝ) (1 / 1000) 0 where
  fin x := x.isSome
  val x := x.getD 0
  add x y h := by
    cases x <;> cases y <;> simp [Arith.add] at h ⊢
    rename_i a b
    rw [show (a + b) * 1.001 - (a + b) = 1000⁻¹ * (a + b) by ring, abs_mul, abs_of_pos (by norm_num : (0 : ℝ) < 1000⁻¹)]
  sub x y h := by
    cases x <;> cases y <;> simp [Arith.sub] at h ⊢
    rename_i a b
    rw [show (a - b) * 1.001 - (a - b) = 1000⁻¹ * (a - b) by ring, abs_mul, abs_of_pos (by norm_num : (0 : ℝ) < 1000⁻¹)]
  mul x y h := by
    cases x <;> cases y <;> simp [Arith.mul] at h ⊢
    rename_i a b
    rw [show (a * b) * 1.001 - (a * b) = 1000⁻¹ * (a * b) by ring, abs_mul, abs_of_pos (by norm_num : (0 : ℝ) < 1000⁻¹), abs_mul]
  sqrt x h := by
    cases x with
    | none => simp [Arith.sqrt] at h
    | some a =>
      simp only [Arith.sqrt, Option.bind_some] at h ⊢
      split at h
      · rename_i h0
        refine ⟨rfl, h0, ?_⟩
        rw [if_pos h0]
        simp only [Option.getD_some]
        rw [show √a * 1.001 - √a = 1 / 1000 * √a by ring, abs_of_nonneg (by positivity)]
      · simp at h
  half := rfl

/-- The unit square: its computed area is finite, so C118 applies. -/
example : exInflatedR.fin (pquadCell (⟨some 0, some 0, some 0⟩ : V3 (Option ℝ)) ⟨some 1, some 0, some 0⟩ ⟨some 1, some 1, some 0⟩
    ⟨some 0, some 1, some 0⟩) := by
  show Option.isSome _ = true
  simp only [pquadCell, V3.norm, V3.dot, V3.cross, V3.add, V3.sub, Arith.add, Arith.sub, Arith.mul, Arith.sqrt, Arith.half, Option.bind_some,
    Option.map_some]
  rw [if_pos (by norm_num)]
  rfl

/-- The other operations. -/
noncomputable local instance exInflatedPy : PyFloat (Option ℝ) where
  toArith := exInflated
  isZero x := open Classical in decide (x = some 0)
  lt x y := open Classical in decide (∃ a b, x = some a ∧ y = some b ∧ a < b)
  le x y := open Classical in decide (∃ a b, x = some a ∧ y = some b ∧ a ≤ b)
  inf := none
  nan := none
  four := some 4
  c360 := some 360
  c1e10 := some 10000000000
  tol := some 0.000001
  planar := some 10000
  mean _ := some 9000

/-- Four grid points a degree apart. -/
noncomputable def exXg : Mat (Option ℝ) := ⟨2, 2, fun i _ => some i⟩
noncomputable def exYg : Mat (Option ℝ) := ⟨2, 2, fun _ j => some j⟩

theorem exNorm (a b c : ℝ) : ∃ d, V3.norm (⟨some a, some b, some c⟩ : V3 (Option ℝ)) = some d := by
  simp only [V3.norm, V3.dot, Arith.add, Arith.mul, Arith.sqrt, Option.bind_some, Option.map_some]
  rw [if_pos (by nlinarith [mul_self_nonneg a, mul_self_nonneg b, mul_self_nonneg c])]
  exact ⟨_, rfl⟩

/-- The hypotheses of C118 are met by a cell of one degree on a sphere with the radius of the earth, with `ε = 1/1000` and `ℓ = 2`. -/
example : ∃ M, areas (⟨fun _ _ _ _ => some 9000, fun lon lat _ _ _ _ => (lon, lat), some 6371000⟩ : Geod (Option ℝ)) exXg exYg
    ⟨1, 2, fun _ _ => some 9000⟩ ⟨2, 1, fun _ _ => some 9000⟩ = .ok M ∧
    |exInflatedR.val (M.get 0 0) - 6371000 ^ 2 * Spec.flatArea (Spec.point (0, 0)) (Spec.point (1, 0)) (Spec.point (1, 1)) (Spec.point (0, 1))| ≤
      6371000 ^ 2 * (14 * (1 / 1000) * (2 + 2 * (1 / 1000)) ^ 2 + 2.1 * (1 / 1000) * (2 + 1 / 1000) + 8 * √0) := by
  have lt : ∀ l : List (Option ℝ), PyFloat.lt (PyFloat.mean l) PyFloat.planar = true := by
    intro l
    classical exact decide_eq_true ⟨9000, 10000, rfl, rfl, by norm_num⟩
  let geod : Geod (Option ℝ) := ⟨fun _ _ _ _ => some 9000, fun lon lat _ _ _ _ => (lon, lat), some 6371000⟩
  obtain ⟨M, e, -, -, h⟩ := C118_areas_error exInflatedR (by norm_num) (by norm_num) (le_refl _) (by norm_num) geod
    (show (1 : ℝ) ≤ 6371000 by norm_num) exXg exYg ⟨1, 2, fun _ _ => some 9000⟩ ⟨2, 1, fun _ _ => some 9000⟩ rfl rfl
    (by decide) (by decide) (lt _) (lt _)
  refine ⟨M, e, ?_⟩
  have hf : exInflatedR.fin (M.get 0 0) := by
    obtain ⟨M', e', -, -, v⟩ := areas_spec geod exXg exYg ⟨1, 2, fun _ _ => some 9000⟩ ⟨2, 1, fun _ _ => some 9000⟩ rfl rfl (by decide) (by decide)
    obtain rfl : M = M' := by
      have := e.symm.trans e'
      injection this
    rw [v 0 0 (by decide) (by decide), lt, lt]
    show Option.isSome (quadOf _ true _ _ _ _) = true
    simp only [quadOf, if_true, pquadCell, V3.add, V3.cross, V3.sub, lonlat2cart1, pt, exXg, exYg, Arith.add, Arith.mul, Arith.sub, Arith.cos, Arith.sin,
      Arith.radians, Option.map_some, Option.bind_some]
    obtain ⟨d, hd⟩ := exNorm _ _ _
    rw [hd]
    rfl
  have key := h 0 0 (fun k l => Spec.point ((k : ℝ), (l : ℝ))) (1 / 1000) 2 (by decide) (by decide) hf (fun _ _ => rfl) ?_ ?_
  · rw [show exInflatedR.val geod.a = 6371000 from rfl] at key
    simpa using key
  · intro k l _ _
    show Spec.chord (Spec.point ((k : ℝ), (l : ℝ))) ⟨Real.cos _ * Real.cos _ * 1.001, Real.sin _ * Real.cos _ * 1.001, Real.sin _⟩ ≤ _
    unfold Spec.chord
    rw [Real.sqrt_le_left (by norm_num)]
    unfold Spec.dist2 Spec.point Spec.rad
    simp only
    have a := Real.sin_sq_add_cos_sq ((k : ℝ) / 180 * Real.pi)
    have b := Real.cos_sq_le_one ((l : ℝ) / 180 * Real.pi)
    generalize Real.cos ((l : ℝ) / 180 * Real.pi) = c at *
    generalize Real.sin ((k : ℝ) / 180 * Real.pi) = s at *
    generalize Real.cos ((k : ℝ) / 180 * Real.pi) = d at *
    rw [show (d * c - d * c * 1.001) ^ 2 + (s * c - s * c * 1.001) ^ 2 + (Real.sin ((l : ℝ) / 180 * Real.pi) - Real.sin ((l : ℝ) / 180 * Real.pi)) ^ 2 =
      (s ^ 2 + d ^ 2) * c ^ 2 * (1 / 1000) ^ 2 by ring, a]
    nlinarith
  · intro k l k' l' _ _ _ _
    unfold Spec.chord
    rw [Real.sqrt_le_left (by norm_num)]
    have a := point_unit ((k : ℝ), (l : ℝ))
    have b := point_unit ((k' : ℝ), (l' : ℝ))
    unfold Spec.OnSphere Spec.inner3 at a b
    unfold Spec.dist2
    nlinarith [sq_nonneg ((Spec.point ((k : ℝ), (l : ℝ))).x + (Spec.point ((k' : ℝ), (l' : ℝ))).x),
      sq_nonneg ((Spec.point ((k : ℝ), (l : ℝ))).y + (Spec.point ((k' : ℝ), (l' : ℝ))).y),
      sq_nonneg ((Spec.point ((k : ℝ), (l : ℝ))).z + (Spec.point ((k' : ℝ), (l' : ℝ))).z)]

end Example
end SG
