import Verif.Props.Geometry
import Mathlib.Analysis.SpecialFunctions.Complex.Arg
import Mathlib.Tactic.LinearCombination
/-! # Areas on the sphere

The spherical excess of a positively oriented triangle is twice the argument of a complex number (`excess_arg`); seen from a point of an open
hemisphere that contains the triangle, the excess is a sum of one term for each side (`excess_sides`), so areas add up. -/

set_option linter.unusedSectionVars false
namespace SG
open Real

/-- Triple product: positive if `a`, `b`, `c` are seen counterclockwise from outside. -/
def Spec.triple (a b c : V3 ℝ) : ℝ :=
  a.x * (b.y * c.z - b.z * c.y) + a.y * (b.z * c.x - b.x * c.z) + a.z * (b.x * c.y - b.y * c.x)

/-- Half the excess is the argument of this number. -/
noncomputable def tri (a b c : V3 ℝ) : ℂ := ⟨1 + Spec.inner3 a b + Spec.inner3 b c + Spec.inner3 c a, Spec.triple a b c⟩

theorem gram (a b c : V3 ℝ) (ha : Spec.OnSphere a) (hb : Spec.OnSphere b) (hc : Spec.OnSphere c) :
    Spec.triple a b c ^ 2 = 1 + 2 * Spec.inner3 a b * Spec.inner3 b c * Spec.inner3 c a - Spec.inner3 a b ^ 2 - Spec.inner3 b c ^ 2 - Spec.inner3 c a ^ 2 := by
  have e : Spec.triple a b c ^ 2 = Spec.inner3 a a * Spec.inner3 b b * Spec.inner3 c c + 2 * Spec.inner3 a b * Spec.inner3 b c * Spec.inner3 c a
      - Spec.inner3 c c * Spec.inner3 a b ^ 2 - Spec.inner3 a a * Spec.inner3 b c ^ 2 - Spec.inner3 b b * Spec.inner3 c a ^ 2 := by
    unfold Spec.triple Spec.inner3; ring
  rw [e, ha, hb, hc]; ring

theorem inner_le_one {p q : V3 ℝ} (hp : Spec.OnSphere p) (hq : Spec.OnSphere q) : -1 ≤ Spec.inner3 p q ∧ Spec.inner3 p q ≤ 1 := by
  unfold Spec.OnSphere Spec.inner3 at *
  constructor
  · nlinarith [sq_nonneg (p.x + q.x), sq_nonneg (p.y + q.y), sq_nonneg (p.z + q.z)]
  · nlinarith [sq_nonneg (p.x - q.x), sq_nonneg (p.y - q.y), sq_nonneg (p.z - q.z)]

/-- Corners of a triangle that is not flat are different. -/
theorem inner_lt_one_of_det (a b c : V3 ℝ) (ha : Spec.OnSphere a) (hb : Spec.OnSphere b) (hc : Spec.OnSphere c) (h : Spec.triple a b c ≠ 0) :
    Spec.inner3 a b < 1 := by
  rcases (inner_le_one ha hb).2.lt_or_eq with h' | h'
  · exact h'
  · exfalso
    have g := gram a b c ha hb hc
    rw [h'] at g
    have : 0 < Spec.triple a b c ^ 2 := by positivity
    nlinarith [sq_nonneg (Spec.inner3 b c - Spec.inner3 c a)]

/-- The vertex angle as an argument. -/
theorem vertexAngle_arg (a b c : V3 ℝ) (ha : Spec.OnSphere a) (hb : Spec.OnSphere b) (hc : Spec.OnSphere c) (h : 0 < Spec.triple a b c) :
    Spec.vertexAngle a b c = Complex.arg ⟨Spec.inner3 b c - Spec.inner3 a b * Spec.inner3 c a, Spec.triple a b c⟩ := by
  have n0 : (⟨Spec.inner3 b c - Spec.inner3 a b * Spec.inner3 c a, Spec.triple a b c⟩ : ℂ) ≠ 0 := by
    intro e
    exact (ne_of_gt h) (congrArg Complex.im e)
  rw [Complex.arg_of_im_nonneg_of_ne_zero h.le n0]
  unfold Spec.vertexAngle InnerProductGeometry.angle
  rw [inner_normal, ha, one_mul, inner3_comm b a, inner3_comm a c]
  congr 1
  dsimp only
  rw [mul_comm (Spec.inner3 c a)]
  congr 1
  have s1 : ‖Spec.normal a b‖ ^ 2 = 1 - Spec.inner3 a b ^ 2 := by
    rw [← real_inner_self_eq_norm_sq, inner_normal, ha, hb, inner3_comm b a]; ring
  have s2 : ‖Spec.normal a c‖ ^ 2 = 1 - Spec.inner3 c a ^ 2 := by
    rw [← real_inner_self_eq_norm_sq, inner_normal, ha, hc, inner3_comm a c]; ring
  have g := gram a b c ha hb hc
  rw [← Real.sqrt_sq (norm_nonneg (⟨Spec.inner3 b c - Spec.inner3 a b * Spec.inner3 c a, Spec.triple a b c⟩ : ℂ)),
    ← Real.sqrt_sq (mul_nonneg (norm_nonneg (Spec.normal a b)) (norm_nonneg (Spec.normal a c)))]
  congr 1
  rw [Complex.sq_norm, Complex.normSq_mk, mul_pow, s1, s2]
  linear_combination -g

theorem triple_rot (a b c : V3 ℝ) : Spec.triple b c a = Spec.triple a b c := by unfold Spec.triple; ring
theorem triple_swap (a b c : V3 ℝ) : Spec.triple b a c = -Spec.triple a b c := by unfold Spec.triple; ring

/-- The excess as an argument. -/
theorem excess_arg (a b c : V3 ℝ) (ha : Spec.OnSphere a) (hb : Spec.OnSphere b) (hc : Spec.OnSphere c) (h : 0 < Spec.triple a b c) :
    Spec.excess a b c = 2 * Complex.arg (tri a b c) ∧ 0 < Complex.arg (tri a b c) ∧ Complex.arg (tri a b c) < π := by
  have hA := vertexAngle_arg a b c ha hb hc h
  have hB := vertexAngle_arg b c a hb hc ha (by rw [triple_rot]; exact h)
  have hC := vertexAngle_arg c a b hc ha hb (by rw [triple_rot, triple_rot]; exact h)
  have dB : Spec.triple b c a = Spec.triple a b c := triple_rot a b c
  have dC : Spec.triple c a b = Spec.triple a b c := by rw [← triple_rot c a b]
  have g := gram a b c ha hb hc
  have b1 := gram a b c ha hb hc
  rw [dB] at hB
  rw [dC] at hC
  have z0 : tri a b c ≠ 0 := fun e => (ne_of_gt h) (congrArg Complex.im e)
  have p1 : 0 < Complex.arg (tri a b c) := by
    rcases (Complex.arg_nonneg_iff.2 (show 0 ≤ (tri a b c).im from h.le)).lt_or_eq with h' | h'
    · exact h'
    · exact absurd (Complex.arg_eq_zero_iff.1 h'.symm).2 (ne_of_gt h)
  have p2 : Complex.arg (tri a b c) < π := Complex.arg_lt_pi_iff.2 (.inr (ne_of_gt h))
  refine ⟨?_, p1, p2⟩
  have wA : (⟨Spec.inner3 b c - Spec.inner3 a b * Spec.inner3 c a, Spec.triple a b c⟩ : ℂ) ≠ 0 := fun e => (ne_of_gt h) (congrArg Complex.im e)
  have wB : (⟨Spec.inner3 c a - Spec.inner3 b c * Spec.inner3 a b, Spec.triple a b c⟩ : ℂ) ≠ 0 := fun e => (ne_of_gt h) (congrArg Complex.im e)
  have wC : (⟨Spec.inner3 a b - Spec.inner3 c a * Spec.inner3 b c, Spec.triple a b c⟩ : ℂ) ≠ 0 := fun e => (ne_of_gt h) (congrArg Complex.im e)
  have ex0 := excess_nonneg a b c
  have ex1 := excess_le a b c
  have e : Spec.excess a b c = Complex.arg ⟨Spec.inner3 b c - Spec.inner3 a b * Spec.inner3 c a, Spec.triple a b c⟩ +
      Complex.arg ⟨Spec.inner3 c a - Spec.inner3 b c * Spec.inner3 a b, Spec.triple a b c⟩ +
      Complex.arg ⟨Spec.inner3 a b - Spec.inner3 c a * Spec.inner3 b c, Spec.triple a b c⟩ - π := by
    unfold Spec.excess
    rw [hA, vertexAngle_comm b a c, hB, hC]
  rw [e] at ex0 ex1 ⊢
  have id : (⟨Spec.inner3 b c - Spec.inner3 a b * Spec.inner3 c a, Spec.triple a b c⟩ : ℂ) * ⟨Spec.inner3 c a - Spec.inner3 b c * Spec.inner3 a b, Spec.triple a b c⟩ *
      ⟨Spec.inner3 a b - Spec.inner3 c a * Spec.inner3 b c, Spec.triple a b c⟩ =
      (((1 - Spec.inner3 a b) * (1 - Spec.inner3 b c) * (1 - Spec.inner3 c a) / 2 : ℝ) : ℂ) * (-(tri a b c * tri a b c)) := by
    unfold tri
    generalize Spec.triple a b c = D at *
    generalize Spec.inner3 a b = x at *
    generalize Spec.inner3 b c = y at *
    generalize Spec.inner3 c a = z at *
    apply Complex.ext
    · simp only [Complex.mul_re, Complex.mul_im, Complex.neg_re, Complex.ofReal_re, Complex.ofReal_im, zero_mul, sub_zero]
      linear_combination (-((y - x * z) + (z - y * x) + (x - z * y)) - (1 - x) * (1 - y) * (1 - z) / 2) * g
    · simp only [Complex.mul_re, Complex.mul_im, Complex.neg_im, Complex.ofReal_re, Complex.ofReal_im, zero_mul, add_zero]
      linear_combination (-D) * g
  have pos : 0 < (1 - Spec.inner3 a b) * (1 - Spec.inner3 b c) * (1 - Spec.inner3 c a) / 2 := by
    have := inner_lt_one_of_det a b c ha hb hc (ne_of_gt h)
    have := inner_lt_one_of_det b c a hb hc ha (by rw [dB]; exact ne_of_gt h)
    have := inner_lt_one_of_det c a b hc ha hb (by rw [dC]; exact ne_of_gt h)
    have q1 : 0 < 1 - Spec.inner3 a b := by linarith
    have q2 : 0 < 1 - Spec.inner3 b c := by linarith
    have q3 : 0 < 1 - Spec.inner3 c a := by linarith
    positivity
  have ang := congrArg (fun z => (Complex.arg z : Real.Angle)) id
  rw [Complex.arg_mul_coe_angle (mul_ne_zero wA wB) wC, Complex.arg_mul_coe_angle wA wB, Complex.arg_real_mul _ pos,
    Complex.arg_neg_coe_angle (mul_ne_zero z0 z0), Complex.arg_mul_coe_angle z0 z0] at ang
  have ang' : ((Complex.arg ⟨Spec.inner3 b c - Spec.inner3 a b * Spec.inner3 c a, Spec.triple a b c⟩ +
      Complex.arg ⟨Spec.inner3 c a - Spec.inner3 b c * Spec.inner3 a b, Spec.triple a b c⟩ +
      Complex.arg ⟨Spec.inner3 a b - Spec.inner3 c a * Spec.inner3 b c, Spec.triple a b c⟩ : ℝ) : Real.Angle) =
      ((Complex.arg (tri a b c) + Complex.arg (tri a b c) + π : ℝ) : Real.Angle) := by
    push_cast
    exact ang
  obtain ⟨k, hk⟩ := Real.Angle.angle_eq_iff_two_pi_dvd_sub.1 ang'
  have hpi := Real.pi_pos
  have k0 : k = 0 := by
    have l1 : (-1 : ℝ) < k := by
      by_contra hh
      have : (k : ℝ) ≤ -1 := not_lt.1 hh
      nlinarith
    have l2 : (k : ℝ) < 1 := by
      by_contra hh
      have : 1 ≤ (k : ℝ) := not_lt.1 hh
      nlinarith
    have l1' : (-1 : ℤ) < k := by exact_mod_cast l1
    have l2' : k < (1 : ℤ) := by exact_mod_cast l2
    omega
  rw [k0, Int.cast_zero, mul_zero] at hk
  linarith

/-! ## Sides seen from a point -/

/-- Contribution of the side from `p` to `q`, seen from `h`. -/
noncomputable def side (h p q : V3 ℝ) : ℝ := Complex.arg (tri h p q)

theorem inner_gt_neg_one {p q h : V3 ℝ} (hp : Spec.OnSphere p) (hq : Spec.OnSphere q) (h1 : 0 < Spec.inner3 h p) (h2 : 0 < Spec.inner3 h q) :
    -1 < Spec.inner3 p q := by
  rcases (inner_le_one hp hq).1.lt_or_eq with hl | hl
  · exact hl
  · exfalso
    unfold Spec.OnSphere Spec.inner3 at *
    have e : (p.x + q.x) ^ 2 + (p.y + q.y) ^ 2 + (p.z + q.z) ^ 2 = 0 := by nlinarith
    have e1 : p.x + q.x = 0 := by nlinarith [sq_nonneg (p.x + q.x), sq_nonneg (p.y + q.y), sq_nonneg (p.z + q.z)]
    have e2 : p.y + q.y = 0 := by nlinarith [sq_nonneg (p.x + q.x), sq_nonneg (p.y + q.y), sq_nonneg (p.z + q.z)]
    have e3 : p.z + q.z = 0 := by nlinarith [sq_nonneg (p.x + q.x), sq_nonneg (p.y + q.y), sq_nonneg (p.z + q.z)]
    have : h.x * (p.x + q.x) + h.y * (p.y + q.y) + h.z * (p.z + q.z) = 0 := by rw [e1, e2, e3]; ring
    linarith

/-- In the hemisphere around `h` the real part is positive. -/
theorem tri_re_pos {h p q : V3 ℝ} (hp : Spec.OnSphere p) (hq : Spec.OnSphere q) (h1 : 0 < Spec.inner3 h p) (h2 : 0 < Spec.inner3 h q) :
    0 < (tri h p q).re := by
  have := (inner_le_one hp hq).1
  have e := inner3_comm q h
  show 0 < 1 + Spec.inner3 h p + Spec.inner3 p q + Spec.inner3 q h
  linarith

theorem side_bounds {h p q : V3 ℝ} (hp : Spec.OnSphere p) (hq : Spec.OnSphere q) (h1 : 0 < Spec.inner3 h p) (h2 : 0 < Spec.inner3 h q) :
    -(π / 2) < side h p q ∧ side h p q < π / 2 :=
  abs_lt.1 (Complex.abs_arg_lt_pi_div_two_iff.2 (.inl (tri_re_pos hp hq h1 h2)))

theorem side_swap {h p q : V3 ℝ} (hp : Spec.OnSphere p) (hq : Spec.OnSphere q) (h1 : 0 < Spec.inner3 h p) (h2 : 0 < Spec.inner3 h q) :
    side h q p = -side h p q := by
  have e : tri h q p = (starRingEnd ℂ) (tri h p q) := by
    unfold tri
    apply Complex.ext
    · simp only [Complex.conj_re]
      rw [inner3_comm h q, inner3_comm q p, inner3_comm p h]; ring
    · simp only [Complex.conj_im]
      unfold Spec.triple; ring
  unfold side
  rw [e, Complex.arg_conj, if_neg]
  have := (side_bounds hp hq h1 h2).2
  unfold side at this
  have := Real.pi_pos
  linarith

/-- `1 + a·σ` has rank one. -/
theorem spinor (a : V3 ℝ) (ha : Spec.OnSphere a) : ∃ u1 u2 v1 v2 : ℂ, (1 : ℂ) = (u1 * v1 + u2 * v2) / 2 ∧ (a.z : ℂ) = (u1 * v1 - u2 * v2) / 2 ∧
    (a.x : ℂ) = (u1 * v2 + u2 * v1) / 2 ∧ Complex.I * (a.y : ℂ) = (u2 * v1 - u1 * v2) / 2 := by
  have hn : a.x * a.x + a.y * a.y + a.z * a.z = 1 := ha
  by_cases h : 1 + a.z = 0
  · have hz : a.z = -1 := by linarith
    rw [hz] at hn
    have hx : a.x = 0 := by nlinarith [sq_nonneg a.x, sq_nonneg a.y]
    have hy : a.y = 0 := by nlinarith [sq_nonneg a.x, sq_nonneg a.y]
    refine ⟨0, 1, 0, 2, ?_, ?_, ?_, ?_⟩ <;> simp [hz, hx, hy]
  · have h' : (1 + a.z : ℂ) ≠ 0 := by exact_mod_cast h
    have hn' : (a.x : ℂ) * a.x + a.y * a.y + a.z * a.z = 1 := by exact_mod_cast hn
    have e : ((a.x : ℂ) + Complex.I * a.y) / (1 + a.z) * (a.x - Complex.I * a.y) = 1 - a.z := by
      field_simp
      linear_combination hn' - (a.y : ℂ) ^ 2 * Complex.I_sq
    have e' : ((a.x : ℂ) + Complex.I * a.y) / (1 + a.z) * (1 + a.z) = a.x + Complex.I * a.y := div_mul_cancel₀ _ h'
    refine ⟨1, (a.x + Complex.I * a.y) / (1 + a.z), 1 + a.z, a.x - Complex.I * a.y, ?_, ?_, ?_, ?_⟩
    · rw [e]; ring
    · rw [e]; ring
    · rw [e']; ring
    · rw [e']; ring

theorem tri_eq (a b c : V3 ℝ) : tri a b c = 1 + (a.x * b.x - (Complex.I * a.y) * (Complex.I * b.y) + a.z * b.z) +
    (b.x * c.x - (Complex.I * b.y) * (Complex.I * c.y) + b.z * c.z) + (c.x * a.x - (Complex.I * c.y) * (Complex.I * a.y) + c.z * a.z) +
    ((Complex.I * a.y) * (b.z * c.x - b.x * c.z) + (Complex.I * b.y) * (c.z * a.x - c.x * a.z) + (Complex.I * c.y) * (a.z * b.x - a.x * b.z)) := by
  have e : tri a b c = ((1 + Spec.inner3 a b + Spec.inner3 b c + Spec.inner3 c a : ℝ) : ℂ) + Complex.I * ((Spec.triple a b c : ℝ) : ℂ) := by
    apply Complex.ext
    · simp [tri]
    · simp [tri]
  rw [e]
  unfold Spec.inner3 Spec.triple
  push_cast
  linear_combination (a.y * b.y + b.y * c.y + c.y * a.y : ℂ) * Complex.I_sq

theorem one_add_inner_eq (a b : V3 ℝ) : ((1 + Spec.inner3 a b : ℝ) : ℂ) = 1 + (a.x * b.x - (Complex.I * a.y) * (Complex.I * b.y) + a.z * b.z) := by
  unfold Spec.inner3
  push_cast
  linear_combination (a.y * b.y : ℂ) * Complex.I_sq

/-- The cocycle identity. -/
theorem tri_cocycle (h a b c : V3 ℝ) (hh : Spec.OnSphere h) (ha : Spec.OnSphere a) (hb : Spec.OnSphere b) (hc : Spec.OnSphere c) :
    tri h a b * tri h b c * tri h c a =
      ((2 * (1 + Spec.inner3 h a) * (1 + Spec.inner3 h b) * (1 + Spec.inner3 h c) : ℝ) : ℂ) * tri a b c := by
  have t3 : ∀ (a b c : V3 ℝ) (p1 p2 q1 q2 r1 r2 s1 s2 t1 t2 w1 w2 : ℂ),
      (1 : ℂ) = (p1 * q1 + p2 * q2) / 2 → (a.z : ℂ) = (p1 * q1 - p2 * q2) / 2 →
      (a.x : ℂ) = (p1 * q2 + p2 * q1) / 2 → Complex.I * (a.y : ℂ) = (p2 * q1 - p1 * q2) / 2 →
      (1 : ℂ) = (r1 * s1 + r2 * s2) / 2 → (b.z : ℂ) = (r1 * s1 - r2 * s2) / 2 →
      (b.x : ℂ) = (r1 * s2 + r2 * s1) / 2 → Complex.I * (b.y : ℂ) = (r2 * s1 - r1 * s2) / 2 →
      (1 : ℂ) = (t1 * w1 + t2 * w2) / 2 → (c.z : ℂ) = (t1 * w1 - t2 * w2) / 2 →
      (c.x : ℂ) = (t1 * w2 + t2 * w1) / 2 → Complex.I * (c.y : ℂ) = (t2 * w1 - t1 * w2) / 2 →
      2 * tri a b c = (q1 * r1 + q2 * r2) * (s1 * t1 + s2 * t2) * (w1 * p1 + w2 * p2) := by
    intro a b c p1 p2 q1 q2 r1 r2 s1 s2 t1 t2 w1 w2 a0 az ax ay b0 bz bx by' c0 cz cx cy
    rw [tri_eq]
    have : ∀ A B C : ℂ, (1 : ℂ) + A + B + C = 1 * 1 * 1 + 1 * A + 1 * B + 1 * C := by intros; ring
    rw [this, ax, ay, az, bx, by', bz, cx, cy, cz]
    calc _ = 2 * (((p1 * q1 + p2 * q2) / 2) * ((r1 * s1 + r2 * s2) / 2) * ((t1 * w1 + t2 * w2) / 2) + ((t1 * w1 + t2 * w2) / 2) * _ +
          ((p1 * q1 + p2 * q2) / 2) * _ + ((r1 * s1 + r2 * s2) / 2) * _ + _) := by rw [← a0, ← b0, ← c0]
      _ = _ := by ring
  have t2 : ∀ (a b : V3 ℝ) (p1 p2 q1 q2 r1 r2 s1 s2 : ℂ),
      (1 : ℂ) = (p1 * q1 + p2 * q2) / 2 → (a.z : ℂ) = (p1 * q1 - p2 * q2) / 2 →
      (a.x : ℂ) = (p1 * q2 + p2 * q1) / 2 → Complex.I * (a.y : ℂ) = (p2 * q1 - p1 * q2) / 2 →
      (1 : ℂ) = (r1 * s1 + r2 * s2) / 2 → (b.z : ℂ) = (r1 * s1 - r2 * s2) / 2 →
      (b.x : ℂ) = (r1 * s2 + r2 * s1) / 2 → Complex.I * (b.y : ℂ) = (r2 * s1 - r1 * s2) / 2 →
      2 * ((1 + Spec.inner3 a b : ℝ) : ℂ) = (q1 * r1 + q2 * r2) * (s1 * p1 + s2 * p2) := by
    intro a b p1 p2 q1 q2 r1 r2 s1 s2 a0 az ax ay b0 bz bx by'
    rw [one_add_inner_eq]
    have : ∀ A : ℂ, (1 : ℂ) + A = 1 * 1 + A := by intros; ring
    rw [this, ax, ay, az, bx, by', bz]
    calc _ = 2 * (((p1 * q1 + p2 * q2) / 2) * ((r1 * s1 + r2 * s2) / 2) + _) := by rw [← a0, ← b0]
      _ = _ := by ring
  obtain ⟨g1, g2, k1, k2, h0, hz, hx, hy⟩ := spinor h hh
  obtain ⟨p1, p2, q1, q2, a0, az, ax, ay⟩ := spinor a ha
  obtain ⟨r1, r2, s1, s2, b0, bz, bx, by'⟩ := spinor b hb
  obtain ⟨t1, t2', w1, w2, c0, cz, cx, cy⟩ := spinor c hc
  have A1 := t3 h a b _ _ _ _ _ _ _ _ _ _ _ _ h0 hz hx hy a0 az ax ay b0 bz bx by'
  have A2 := t3 h b c _ _ _ _ _ _ _ _ _ _ _ _ h0 hz hx hy b0 bz bx by' c0 cz cx cy
  have A3 := t3 h c a _ _ _ _ _ _ _ _ _ _ _ _ h0 hz hx hy c0 cz cx cy a0 az ax ay
  have A4 := t3 a b c _ _ _ _ _ _ _ _ _ _ _ _ a0 az ax ay b0 bz bx by' c0 cz cx cy
  have B1 := t2 h a _ _ _ _ _ _ _ _ h0 hz hx hy a0 az ax ay
  have B2 := t2 h b _ _ _ _ _ _ _ _ h0 hz hx hy b0 bz bx by'
  have B3 := t2 h c _ _ _ _ _ _ _ _ h0 hz hx hy c0 cz cx cy
  have two : (8 : ℂ) ≠ 0 := by norm_num
  apply mul_left_cancel₀ two
  calc 8 * (tri h a b * tri h b c * tri h c a) = (2 * tri h a b) * (2 * tri h b c) * (2 * tri h c a) := by ring
    _ = (2 * ((1 + Spec.inner3 h a : ℝ) : ℂ)) * (2 * ((1 + Spec.inner3 h b : ℝ) : ℂ)) * (2 * ((1 + Spec.inner3 h c : ℝ) : ℂ)) * (2 * tri a b c) := by
        rw [A1, A2, A3, A4, B1, B2, B3]; ring
    _ = _ := by push_cast; ring

/-- Seen from a point of an open hemisphere that contains it, the excess of a triangle is the sum of the contributions of its sides. -/
theorem excess_sides (h a b c : V3 ℝ) (hh : Spec.OnSphere h) (ha : Spec.OnSphere a) (hb : Spec.OnSphere b) (hc : Spec.OnSphere c)
    (h1 : 0 < Spec.inner3 h a) (h2 : 0 < Spec.inner3 h b) (h3 : 0 < Spec.inner3 h c) (hd : 0 < Spec.triple a b c) :
    Spec.excess a b c = 2 * (side h a b + side h b c + side h c a) := by
  obtain ⟨e, p1, p2⟩ := excess_arg a b c ha hb hc hd
  rw [e]
  have b1 := side_bounds ha hb h1 h2
  have b2 := side_bounds hb hc h2 h3
  have b3 := side_bounds hc ha h3 h1
  have hpi := Real.pi_pos
  -- not all three sides turn the wrong way
  have some : 0 ≤ side h a b ∨ 0 ≤ side h b c ∨ 0 ≤ side h c a := by
    by_contra hn
    simp only [not_or, not_le] at hn
    obtain ⟨n1, n2, n3⟩ := hn
    unfold side at n1 n2 n3
    rw [Complex.arg_neg_iff] at n1 n2 n3
    have n1' : Spec.triple h a b < 0 := n1
    have n2' : Spec.triple h b c < 0 := n2
    have n3' : Spec.triple h c a < 0 := n3
    have id : Spec.triple a b c * Spec.inner3 h h = Spec.inner3 h a * Spec.triple h b c + Spec.inner3 h b * Spec.triple h c a + Spec.inner3 h c * Spec.triple h a b := by
      unfold Spec.triple Spec.inner3; ring
    rw [hh] at id
    nlinarith
  have z1 : tri h a b ≠ 0 := fun e => (ne_of_gt (tri_re_pos ha hb h1 h2)) (congrArg Complex.re e)
  have z2 : tri h b c ≠ 0 := fun e => (ne_of_gt (tri_re_pos hb hc h2 h3)) (congrArg Complex.re e)
  have z3 : tri h c a ≠ 0 := fun e => (ne_of_gt (tri_re_pos hc ha h3 h1)) (congrArg Complex.re e)
  have ang := congrArg (fun z => (Complex.arg z : Real.Angle)) (tri_cocycle h a b c hh ha hb hc)
  rw [Complex.arg_mul_coe_angle (mul_ne_zero z1 z2) z3, Complex.arg_mul_coe_angle z1 z2, Complex.arg_real_mul _ (by positivity)] at ang
  have ang' : ((side h a b + side h b c + side h c a : ℝ) : Real.Angle) = ((Complex.arg (tri a b c) : ℝ) : Real.Angle) := by
    unfold side
    push_cast
    exact ang
  obtain ⟨k, hk⟩ := Real.Angle.angle_eq_iff_two_pi_dvd_sub.1 ang'
  have l1 : (-1 : ℝ) < k := by
    by_contra hh
    have : (k : ℝ) ≤ -1 := not_lt.1 hh
    rcases some with s | s | s <;> nlinarith
  have l2 : (k : ℝ) < 1 := by
    by_contra hh
    have : 1 ≤ (k : ℝ) := not_lt.1 hh
    nlinarith
  have k0 : k = 0 := by
    have l1' : (-1 : ℤ) < k := by exact_mod_cast l1
    have l2' : k < (1 : ℤ) := by exact_mod_cast l2
    omega
  rw [k0, Int.cast_zero, mul_zero] at hk
  linarith

/-- Along a great circle the contributions add up. -/
theorem side_add (h p q r : V3 ℝ) (hh : Spec.OnSphere h) (hp : Spec.OnSphere p) (hq : Spec.OnSphere q) (hr : Spec.OnSphere r)
    (h1 : 0 < Spec.inner3 h p) (h2 : 0 < Spec.inner3 h q) (h3 : 0 < Spec.inner3 h r) (c d : ℝ) (hc : 0 ≤ c) (hd : 0 ≤ d)
    (e : q = ⟨c * p.x + d * r.x, c * p.y + d * r.y, c * p.z + d * r.z⟩) : side h p q + side h q r = side h p r := by
  have b1 := side_bounds hp hq h1 h2
  have b2 := side_bounds hq hr h2 h3
  have b3 := side_bounds hr hp h3 h1
  have hpi := Real.pi_pos
  have z1 : tri h p q ≠ 0 := fun e => (ne_of_gt (tri_re_pos hp hq h1 h2)) (congrArg Complex.re e)
  have z2 : tri h q r ≠ 0 := fun e => (ne_of_gt (tri_re_pos hq hr h2 h3)) (congrArg Complex.re e)
  have z3 : tri h r p ≠ 0 := fun e => (ne_of_gt (tri_re_pos hr hp h3 h1)) (congrArg Complex.re e)
  have ang := congrArg (fun z => (Complex.arg z : Real.Angle)) (tri_cocycle h p q r hh hp hq hr)
  rw [Complex.arg_mul_coe_angle (mul_ne_zero z1 z2) z3, Complex.arg_mul_coe_angle z1 z2, Complex.arg_real_mul _ (by positivity)] at ang
  have i0 := inner_gt_neg_one hp hr h1 h3
  have real : tri p q r = (((1 + Spec.inner3 p r) * (1 + c + d) : ℝ) : ℂ) := by
    have e1 : Spec.inner3 p q = c + d * Spec.inner3 p r := by
      have : Spec.inner3 p q = c * Spec.inner3 p p + d * Spec.inner3 p r := by rw [e]; unfold Spec.inner3; dsimp only; ring
      rw [this, hp]; ring
    have e2 : Spec.inner3 q r = c * Spec.inner3 p r + d := by
      have : Spec.inner3 q r = c * Spec.inner3 p r + d * Spec.inner3 r r := by rw [e]; unfold Spec.inner3; dsimp only; ring
      rw [this, hr]; ring
    apply Complex.ext
    · rw [Complex.ofReal_re]
      show 1 + Spec.inner3 p q + Spec.inner3 q r + Spec.inner3 r p = _
      rw [e1, e2, inner3_comm r p]; ring
    · rw [Complex.ofReal_im]
      show Spec.triple p q r = 0
      rw [e]; unfold Spec.triple; dsimp only; ring
  have pos : 0 < (1 + Spec.inner3 p r) * (1 + c + d) := by
    have : 0 < 1 + Spec.inner3 p r := by linarith
    positivity
  rw [real, Complex.arg_ofReal_of_nonneg pos.le] at ang
  have ang' : ((side h p q + side h q r + side h r p : ℝ) : Real.Angle) = ((0 : ℝ) : Real.Angle) := by
    unfold side
    push_cast
    exact ang
  obtain ⟨k, hk⟩ := Real.Angle.angle_eq_iff_two_pi_dvd_sub.1 ang'
  have l1 : (-1 : ℝ) < k := by
    by_contra hh
    have : (k : ℝ) ≤ -1 := not_lt.1 hh
    nlinarith
  have l2 : (k : ℝ) < 1 := by
    by_contra hh
    have : 1 ≤ (k : ℝ) := not_lt.1 hh
    nlinarith
  have k0 : k = 0 := by
    have l1' : (-1 : ℤ) < k := by exact_mod_cast l1
    have l2' : k < (1 : ℤ) := by exact_mod_cast l2
    omega
  rw [k0, Int.cast_zero, mul_zero] at hk
  rw [side_swap hp hr h1 h3] at hk
  linarith

end SG
