import Verif.Props.Doubles
import Mathlib.Analysis.Real.Pi.Bounds
/-! # C119: cell areas in double precision, end to end -/
set_option linter.unusedSectionVars false
set_option exponentiation.threshold 5000

namespace SG
open Real

namespace Spec
/-- The C library computes sine and cosine up to the absolute error `δ` for arguments up to 8. -/
structure Accurate [Libm] (δ : ℝ) : Prop where
  cos : ∀ x : Dbl, x.isFin = true → |x.val| ≤ 8 → (Libm.cos x).isFin = true ∧ |(Libm.cos x).val - Real.cos x.val| ≤ δ
  sin : ∀ x : Dbl, x.isFin = true → |x.val| ≤ 8 → (Libm.sin x).isFin = true ∧ |(Libm.sin x).val - Real.sin x.val| ≤ δ

/-- A coordinate in degrees that is neither infinite nor NaN and between -360 and 360. -/
def Degrees (x : Dbl) : Prop := x.isFin = true ∧ |x.val| ≤ 360
end Spec

/-! ## `np.radians` -/

theorem val_of_int {x : Dbl} {q : Int} {k : Nat} (hk : k ≤ 1074) (h : x.int = q * 2 ^ k) : x.val = q / 2 ^ (1074 - k) := by
  unfold Dbl.val
  rw [h, Dbl.U_eq]
  have e : (2 : ℝ) ^ 1074 = 2 ^ (1074 - k) * 2 ^ k := by rw [← pow_add]; congr 1; omega
  rw [e]
  have h0 : (2 : ℝ) ^ k ≠ 0 := pow_ne_zero _ (by norm_num)
  have h1 : (2 : ℝ) ^ (1074 - k) ≠ 0 := pow_ne_zero _ (by norm_num)
  generalize (2 : ℝ) ^ (1074 - k) = a at *
  push_cast
  generalize (2 : ℝ) ^ k = b at *
  field_simp

/-- The factor `np.pi / 180`. -/
def degK : Dbl := Dbl.div Dbl.piD (Dbl.lit 180 1)

theorem degK_fin : degK.isFin = true := by decide +kernel

theorem degK_val : degK.val = 5030569068109113 / 2 ^ 58 := by
  have h : degK.int = 5030569068109113 * 2 ^ 1016 := by decide +kernel
  have := val_of_int (k := 1016) (by norm_num) h
  rw [this]
  norm_num

theorem degK_err : |degK.val - π / 180| ≤ 3e-19 := by
  rw [degK_val, abs_le]
  have h1 := Real.pi_gt_d20
  have h2 := Real.pi_lt_d20
  constructor <;> norm_num at * <;> linarith

theorem tiny_small : tiny ≤ ((2 : ℝ) ^ 200)⁻¹ := by
  unfold tiny
  rw [div_div, div_le_iff₀ (mul_pos two_pos Dbl.U_pos)]
  have : (2 : ℝ) ^ 200 ≤ Dbl.U := by
    rw [Dbl.U_eq]; exact pow_le_pow_right₀ (by norm_num) (by norm_num)
  have h : (0 : ℝ) < 2 ^ 200 := by norm_num
  rw [inv_mul_eq_div, le_div_iff₀ h]
  linarith

section
variable [Libm]

theorem radians_err {x : Dbl} (h : Spec.Degrees x) :
    (Arith.radians x).isFin = true ∧ |(Arith.radians x).val| ≤ 8 ∧ |(Arith.radians x).val - Spec.rad x.val| ≤ 7.5 * (2 ^ 53)⁻¹ := by
  have e : (Arith.radians x : Dbl) = Dbl.mul x degK := rfl
  have hp : |x.val * degK.val| ≤ 6.2833 := by
    have h3 := h.2
    rw [abs_mul, degK_val, abs_of_pos (a := 5030569068109113 / 2 ^ 58) (by norm_num)]
    norm_num at *
    linarith
  have f : (Dbl.mul x degK).isFin = true := Dbl.fin_mul h.1 degK_fin (hp.trans (le_trans (by norm_num) (Dbl.top_big 100 (by norm_num))))
  obtain ⟨-, -, em⟩ := Dbl.mul_err x degK f
  have t := tiny_small
  change _ ≤ _ + tiny at em
  have s : |x.val * degK.val - Spec.rad x.val| ≤ 360 * 3e-19 := by
    have : x.val * degK.val - Spec.rad x.val = x.val * (degK.val - π / 180) := by unfold Spec.rad; ring
    rw [this, abs_mul]
    exact mul_le_mul h.2 degK_err (abs_nonneg _) (by norm_num)
  have tot := (abs_sub_le _ _ _).trans (add_le_add em s)
  have m := mul_le_mul_of_nonneg_left hp (show (0 : ℝ) ≤ (2 ^ 53)⁻¹ by norm_num)
  rw [e]
  refine ⟨f, ?_, ?_⟩
  · have := abs_sub_abs_le_abs_sub (Dbl.mul x degK).val (x.val * degK.val)
    norm_num at *
    linarith
  · norm_num at *
    linarith

/-! ## `lonlat2cart` -/

theorem trig_err {δ : ℝ} (acc : Spec.Accurate δ) {x : Dbl} (h : Spec.Degrees x) :
    ((Arith.cos (Arith.radians x : Dbl)).isFin = true ∧ |(Arith.cos (Arith.radians x : Dbl)).val - cos (Spec.rad x.val)| ≤ 7.5 * (2 ^ 53)⁻¹ + δ) ∧
    ((Arith.sin (Arith.radians x : Dbl)).isFin = true ∧ |(Arith.sin (Arith.radians x : Dbl)).val - sin (Spec.rad x.val)| ≤ 7.5 * (2 ^ 53)⁻¹ + δ) := by
  obtain ⟨f, b, e⟩ := radians_err h
  obtain ⟨c1, c2⟩ := acc.cos _ f b
  obtain ⟨s1, s2⟩ := acc.sin _ f b
  refine ⟨⟨c1, ?_⟩, s1, ?_⟩
  · have := (abs_sub_le _ _ _).trans (add_le_add c2 ((Real.abs_cos_sub_cos_le _ _).trans e))
    rw [add_comm]; exact this
  · have := (abs_sub_le _ _ _).trans (add_le_add s2 ((Real.abs_sin_sub_sin_le _ _).trans e))
    rw [add_comm]; exact this

/-- A product of two numbers between -1 and 1 computed from approximations. -/
theorem prod_err {e c d c' d' p : ℝ} (he : e ≤ 12 * (2 ^ 53)⁻¹) (hc : |c| ≤ 1) (hd : |d| ≤ 1) (h1 : |c' - c| ≤ e) (h2 : |d' - d| ≤ e)
    (h3 : |p - c' * d'| ≤ (2 ^ 53)⁻¹ * |c' * d'| + tiny) : |p - c * d| ≤ 26 * (2 ^ 53)⁻¹ := by
  have e0 : 0 ≤ e := (abs_nonneg _).trans h1
  have t := tiny_small
  have c1 : |c'| ≤ 1 + e := by
    have := abs_sub_abs_le_abs_sub c' c; linarith
  have k : |c' * d' - c * d| ≤ (1 + e) * e + e := by
    calc |c' * d' - c * d| = |c' * (d' - d) + (c' - c) * d| := by ring_nf
      _ ≤ |c' * (d' - d)| + |(c' - c) * d| := abs_add_le _ _
      _ = |c'| * |d' - d| + |c' - c| * |d| := by rw [abs_mul, abs_mul]
      _ ≤ (1 + e) * e + e * 1 := by gcongr
      _ = _ := by ring
  have cd : |c * d| ≤ 1 := by
    rw [abs_mul]; exact mul_le_one₀ hc (abs_nonneg _) hd
  have cd' : |c' * d'| ≤ 1 + ((1 + e) * e + e) := by
    have := abs_sub_abs_le_abs_sub (c' * d') (c * d); linarith
  have tot := (abs_sub_le _ _ _).trans (add_le_add h3 k)
  have m := mul_le_mul_of_nonneg_left cd' (show (0 : ℝ) ≤ (2 ^ 53)⁻¹ by norm_num)
  have ee : e * e ≤ 12 * (2 ^ 53)⁻¹ * (12 * (2 ^ 53)⁻¹) := mul_le_mul he he e0 (by norm_num)
  norm_num at *
  nlinarith

theorem cart_err (acc : Spec.Accurate (2 ^ 51)⁻¹) {lon lat : Dbl} (h1 : Spec.Degrees lon) (h2 : Spec.Degrees lat) :
    Unitish (lonlat2cart1 lon lat) ∧
    Spec.chord (Spec.point (lon.val, lat.val)) (doubles.pt (lonlat2cart1 lon lat)) ≤ (2 ^ 47)⁻¹ := by
  obtain ⟨⟨a1, a2⟩, a3, a4⟩ := trig_err acc h1
  obtain ⟨⟨b1, b2⟩, b3, b4⟩ := trig_err acc h2
  have he : 7.5 * (2 ^ 53)⁻¹ + (2 ^ 51)⁻¹ ≤ 12 * ((2 : ℝ) ^ 53)⁻¹ := by norm_num
  have fm : ∀ {x y : Dbl} {c d : ℝ}, x.isFin = true → y.isFin = true → |c| ≤ 1 → |d| ≤ 1 → |x.val - c| ≤ 7.5 * (2 ^ 53)⁻¹ + (2 ^ 51)⁻¹ →
      |y.val - d| ≤ 7.5 * (2 ^ 53)⁻¹ + (2 ^ 51)⁻¹ → (Dbl.mul x y).isFin = true ∧ |(Dbl.mul x y).val - c * d| ≤ 26 * (2 ^ 53)⁻¹ := by
    intro x y c d hx hy hc hd e1 e2
    have bx : |x.val| ≤ 2 := by have := abs_sub_abs_le_abs_sub x.val c; norm_num at *; linarith
    have by' : |y.val| ≤ 2 := by have := abs_sub_abs_le_abs_sub y.val d; norm_num at *; linarith
    have f : (Dbl.mul x y).isFin = true := by
      refine Dbl.fin_mul hx hy (le_trans ?_ (Dbl.top_big 2 (by norm_num)))
      rw [abs_mul]
      have := mul_le_mul bx by' (abs_nonneg _) (by norm_num)
      norm_num at *; linarith
    obtain ⟨-, -, e⟩ := Dbl.mul_err x y f
    exact ⟨f, prod_err he hc hd e1 e2 e⟩
  obtain ⟨x1, x2⟩ := fm a1 b1 (abs_cos_le_one _) (abs_cos_le_one _) a2 b2
  obtain ⟨y1, y2⟩ := fm a3 b1 (abs_sin_le_one _) (abs_cos_le_one _) a4 b2
  have prod1 : ∀ {c d : ℝ}, |c| ≤ 1 → |d| ≤ 1 → |c * d| ≤ 1 := fun hc hd => by
    rw [abs_mul]; exact mul_le_one₀ hc (abs_nonneg _) hd
  have w : ∀ {x : Dbl} {c : ℝ}, x.isFin = true → |c| ≤ 1 → |x.val - c| ≤ 26 * (2 ^ 53)⁻¹ → Within 2 x := by
    intro x c f hc e
    refine ⟨f, ?_⟩
    have := abs_sub_abs_le_abs_sub x.val c
    norm_num at *; linarith
  have z2 : |(Arith.sin (Arith.radians lat : Dbl)).val - sin (Spec.rad lat.val)| ≤ 26 * (2 ^ 53)⁻¹ := b4.trans (he.trans (by norm_num))
  refine ⟨⟨w x1 (prod1 (abs_cos_le_one _) (abs_cos_le_one _)) x2, w y1 (prod1 (abs_sin_le_one _) (abs_cos_le_one _)) y2,
    w b3 (abs_sin_le_one _) z2⟩, ?_⟩
  unfold Spec.chord Spec.dist2
  rw [Real.sqrt_le_left (by norm_num)]
  have sq : ∀ {a b t : ℝ}, |a - b| ≤ t → (b - a) ^ 2 ≤ t ^ 2 := by
    intro a b t h
    rw [abs_sub_comm] at h
    exact sq_le_sq' (by have := (abs_le.1 h).1; linarith) (abs_le.1 h).2
  have q1 := sq x2
  have q2 := sq y2
  have q3 := sq z2
  refine (add_le_add (add_le_add q1 q2) q3).trans ?_
  norm_num

/-! ## The areas -/

/-- **C119** (flat areas): if the C library has sine and cosine up to `2⁻⁵¹`, `areas`, run with doubles where the edges are short, returns finite areas,
which differ from `a²` times the area of the plane quadrilateral with the four grid points as corners by at most `a² (2⁻⁴⁵ ℓ + 2⁻⁹⁰)`. -/
theorem C119_double_areas (acc : Spec.Accurate (2 ^ 51)⁻¹) (geod : Geod Dbl) (hf : geod.a.isFin = true) (ha : 1 ≤ geod.a.val)
    (hA : geod.a.val ≤ 2 ^ 40) (xg yg ex ey : Mat Dbl) (hr : xg.rows = yg.rows) (hc : xg.cols = yg.cols) (hr0 : 0 < xg.rows) (hc0 : 0 < xg.cols)
    (hx : PyFloat.lt (PyFloat.mean (nonzeros ex)) PyFloat.planar = true) (hy : PyFloat.lt (PyFloat.mean (nonzeros ey)) PyFloat.planar = true) :
    ∃ M, areas geod xg yg ex ey = .ok M ∧ M.rows = xg.rows - 1 ∧ M.cols = xg.cols - 1 ∧
      ∀ i j (P : Nat → Nat → V3 ℝ) (ℓ : ℝ), i + 1 < xg.rows → j + 1 < xg.cols → ℓ ≤ 2 →
        (∀ k l, P k l = Spec.point ((xg.get k l).val, (yg.get k l).val)) →
        (∀ k l, (k = i ∨ k = i + 1) → (l = j ∨ l = j + 1) → Spec.Degrees (xg.get k l) ∧ Spec.Degrees (yg.get k l)) →
        (∀ k l k' l', (k = i ∨ k = i + 1) → (l = j ∨ l = j + 1) → (k' = i ∨ k' = i + 1) → (l' = j ∨ l' = j + 1) → Spec.chord (P k l) (P k' l') ≤ ℓ) →
        (M.get i j).isFin = true ∧
        |(M.get i j).val - geod.a.val ^ 2 * Spec.flatArea (P i j) (P (i + 1) j) (P (i + 1) (j + 1)) (P i (j + 1))| ≤
          geod.a.val ^ 2 * ((2 ^ 45)⁻¹ * ℓ + (2 ^ 90)⁻¹) := by
  obtain ⟨M, e, er, ec, v⟩ := C118_areas_error doubles (by norm_num) (by norm_num) tiny_nonneg tiny_le geod ha xg yg ex ey hr hc hr0 hc0 hx hy
  obtain ⟨M', e', -, -, v'⟩ := areas_spec geod xg yg ex ey hr.symm hc.symm hr0 hc0
  rw [e] at e'
  cases e'
  refine ⟨M, e, er, ec, fun i j P ℓ hi hj hℓ hP hd hch => ?_⟩
  have hv := v' i j (by omega) (by omega)
  rw [hx, hy] at hv
  simp only [quadOf, Bool.and_self, if_true, pt] at hv
  have un : ∀ k l, (k = i ∨ k = i + 1) → (l = j ∨ l = j + 1) → Unitish (lonlat2cart1 (xg.get k l) (yg.get k l)) := fun k l hk hl =>
    (cart_err acc (hd k l hk hl).1 (hd k l hk hl).2).1
  have fin : (M.get i j).isFin = true := by
    rw [hv]
    have w1 := pquadCell_within (un i j (.inl rfl) (.inl rfl)) (un (i + 1) j (.inr rfl) (.inl rfl)) (un (i + 1) (j + 1) (.inr rfl) (.inr rfl))
      (un i (j + 1) (.inl rfl) (.inr rfl))
    have wa : Within (2 ^ 40) geod.a := ⟨hf, by rw [abs_of_nonneg (by linarith)]; exact hA⟩
    have big : (2 : ℝ) ^ 200 ≤ Dbl.top := Dbl.top_big 200 (by norm_num)
    have w2 : Within (2 ^ 82) (geod.a *ₚ geod.a) := wa.mul wa (by norm_num) (le_trans (by norm_num) big)
    exact (w1.mul w2 (c := 2 ^ 130) (by norm_num) (le_trans (by norm_num) big)).1
  refine ⟨fin, ?_⟩
  have key := v i j P (2 ^ 47)⁻¹ ℓ hi hj fin hP (fun k l hk hl => by
    rw [hP]; exact (cart_err acc (hd k l hk hl).1 (hd k l hk hl).2).2) hch
  refine key.trans (mul_le_mul_of_nonneg_left ?_ (sq_nonneg _))
  have ℓ0 : 0 ≤ ℓ := (Real.sqrt_nonneg _).trans (hch i j i j (.inl rfl) (.inl rfl) (.inl rfl) (.inl rfl))
  have ts : √tiny ≤ ((2 : ℝ) ^ 100)⁻¹ := by
    rw [Real.sqrt_le_left (by positivity)]
    refine tiny_small.trans (le_of_eq ?_)
    rw [inv_pow, ← pow_mul]
  have ll : ℓ * ℓ ≤ 2 * ℓ := mul_le_mul_of_nonneg_right hℓ ℓ0
  norm_num at *
  nlinarith

/-- **C119** (areas on the sphere): for a counterclockwise cell whose two triangles have sides of at most `d` and circumradius at most `r` on the unit
sphere, the area computed in doubles is the exact area of the cell on the sphere of radius `a`, up to the factors of C113 and the rounding error. -/
theorem C119_double_spherical (acc : Spec.Accurate (2 ^ 51)⁻¹) (geod : Geod Dbl) (hf : geod.a.isFin = true) (ha : 1 ≤ geod.a.val)
    (hA : geod.a.val ≤ 2 ^ 40) (xg yg ex ey : Mat Dbl) (hr : xg.rows = yg.rows) (hc : xg.cols = yg.cols) (hr0 : 0 < xg.rows) (hc0 : 0 < xg.cols)
    (hx : PyFloat.lt (PyFloat.mean (nonzeros ex)) PyFloat.planar = true) (hy : PyFloat.lt (PyFloat.mean (nonzeros ey)) PyFloat.planar = true) :
    ∃ M, areas geod xg yg ex ey = .ok M ∧ M.rows = xg.rows - 1 ∧ M.cols = xg.cols - 1 ∧
      ∀ i j (P : Nat → Nat → V3 ℝ) (d r : ℝ), i + 1 < xg.rows → j + 1 < xg.cols → 0 ≤ d → d ≤ 1 →
        (∀ k l, P k l = Spec.point ((xg.get k l).val, (yg.get k l).val)) →
        (∀ k l, (k = i ∨ k = i + 1) → (l = j ∨ l = j + 1) → Spec.Degrees (xg.get k l) ∧ Spec.Degrees (yg.get k l)) →
        Spec.LeftCell (P i j) (P (i + 1) j) (P (i + 1) (j + 1)) (P i (j + 1)) →
        Spec.SmallCell d r (P i j) (P (i + 1) j) (P (i + 1) (j + 1)) (P i (j + 1)) →
        let S := geod.a.val ^ 2 * Spec.quadArea (P i j) (P (i + 1) j) (P (i + 1) (j + 1)) (P i (j + 1))
        let E := geod.a.val ^ 2 * ((2 ^ 44)⁻¹ * d + (2 ^ 90)⁻¹)
        (M.get i j).isFin = true ∧ (1 - 3 / 8 * d ^ 2) * S ≤ (M.get i j).val + E ∧ √(1 - r ^ 2) * ((M.get i j).val - E) ≤ S := by
  obtain ⟨M, e, er, ec, v⟩ := C119_double_areas acc geod hf ha hA xg yg ex ey hr hc hr0 hc0 hx hy
  refine ⟨M, e, er, ec, fun i j P d r hi hj d0 d1 hP hd left small => ?_⟩
  intro S E
  have on : ∀ k l, Spec.OnSphere (P k l) := fun k l => hP k l ▸ point_unit _
  have q : Spec.quadArea (P i j) (P (i + 1) j) (P (i + 1) (j + 1)) (P i (j + 1)) = squadCell (P i j) (P (i + 1) j) (P (i + 1) (j + 1)) (P i (j + 1)) :=
    (C15_sum_of_excesses _ _ _ _ (on _ _) (on _ _) (on _ _) (on _ _) (nonDeg_of_leftTurn (on _ _) (on _ _) (on _ _) left.abc)
      (nonDeg_of_leftTurn (on _ _) (on _ _) (on _ _) left.acd)).symm
  obtain ⟨lo, hi'⟩ := C113_formulas_agree _ _ _ _ d r (on _ _) (on _ _) (on _ _) (on _ _) left.abc left.acd small.abc small.acd (by nlinarith)
  have fl : pquadCell (P i j) (P (i + 1) j) (P (i + 1) (j + 1)) (P i (j + 1)) =
      Spec.flatArea (P i j) (P (i + 1) j) (P (i + 1) (j + 1)) (P i (j + 1)) := by
    unfold Spec.flatArea; rw [← C14_bretschneider]
  rw [fl] at lo hi'
  rw [← q] at lo hi'
  have sw : ∀ p q : V3 ℝ, Spec.dist2 p q = Spec.dist2 q p := by intro p q; unfold Spec.dist2; ring
  have ch : ∀ {p q : V3 ℝ}, Spec.dist2 p q ≤ d ^ 2 → Spec.chord p q ≤ d := fun h => (Real.sqrt_le_sqrt h).trans (le_of_eq (Real.sqrt_sq d0))
  have sc : ∀ p q : V3 ℝ, Spec.chord p q = Spec.chord q p := by intro p q; unfold Spec.chord; rw [sw]
  have z : ∀ p : V3 ℝ, Spec.chord p p ≤ 2 * d := by
    intro p
    have : Spec.chord p p = 0 := by unfold Spec.chord Spec.dist2; simp
    linarith
  have tri : ∀ p q r : V3 ℝ, Spec.chord p r ≤ Spec.chord p q + Spec.chord q r := by
    intro p q r
    rw [dist_eq_len3, dist_eq_len3, dist_eq_len3]
    have := len3_add (q.x - p.x) (q.y - p.y) (q.z - p.z) (r.x - q.x) (r.y - q.y) (r.z - q.z)
    convert this using 2 <;> ring
  have ab := ch small.abc.ab
  have bc := ch small.abc.bc
  have ca := ch small.abc.ca
  have cd := ch small.acd.bc
  have da := ch small.acd.ca
  have bd := (tri (P (i + 1) j) (P i j) (P i (j + 1))).trans (add_le_add (le_of_eq (sc _ _)) (le_of_eq (sc _ _)))
  have all : ∀ k l k' l', (k = i ∨ k = i + 1) → (l = j ∨ l = j + 1) → (k' = i ∨ k' = i + 1) → (l' = j ∨ l' = j + 1) →
      Spec.chord (P k l) (P k' l') ≤ 2 * d := by
    intro k l k' l' h1 h2 h3 h4
    rcases h1 with rfl | rfl <;> rcases h2 with rfl | rfl <;> rcases h3 with rfl | rfl <;> rcases h4 with rfl | rfl <;>
      first | exact z _ | linarith | (rw [sc]; linarith)
  obtain ⟨fin, err⟩ := v i j P (2 * d) hi hj (by linarith) hP hd all
  refine ⟨fin, ?_⟩
  have eE : geod.a.val ^ 2 * ((2 ^ 45)⁻¹ * (2 * d) + (2 ^ 90)⁻¹) = E := by
    show _ = geod.a.val ^ 2 * ((2 ^ 44)⁻¹ * d + (2 ^ 90)⁻¹)
    congr 2; ring
  rw [eE] at err
  obtain ⟨l1, l2⟩ := abs_le.1 err
  have a0 : 0 ≤ geod.a.val ^ 2 := by positivity
  have lo' := mul_le_mul_of_nonneg_left lo a0
  have hi'' := mul_le_mul_of_nonneg_left hi' a0
  have s0 := Real.sqrt_nonneg (1 - r ^ 2)
  constructor
  · show (1 - 3 / 8 * d ^ 2) * (geod.a.val ^ 2 * _) ≤ _
    linarith
  · show _ ≤ geod.a.val ^ 2 * _
    have := mul_le_mul_of_nonneg_left (show (M.get i j).val - E ≤
      geod.a.val ^ 2 * Spec.flatArea (P i j) (P (i + 1) j) (P (i + 1) (j + 1)) (P i (j + 1)) by linarith) s0
    linarith

end
/-! ### A concrete instance: sine and cosine rounded down to multiples of `2⁻⁵³`, and a cell of 30 degrees -/
section Example

theorem exists_near (c : ℝ) (h : |c| ≤ 1) : ∃ x : Dbl, x.isFin = true ∧ |x.val - c| ≤ (2 ^ 51)⁻¹ := by
  obtain ⟨h1, h2⟩ := abs_le.1 h
  have f1 := Int.floor_le (c * 2 ^ 53)
  have f2 := Int.lt_floor_add_one (c * 2 ^ 53)
  have b1 : -(2 ^ 53 : Int) ≤ ⌊c * 2 ^ 53⌋ := by rw [Int.le_floor]; push_cast; nlinarith
  have b2 : ⌊c * 2 ^ 53⌋ ≤ (2 ^ 53 : Int) := by
    have : (⌊c * 2 ^ 53⌋ : ℝ) ≤ ((2 ^ 53 : Int) : ℝ) := by push_cast; nlinarith
    exact_mod_cast this
  generalize ⌊c * 2 ^ 53⌋ = n at *
  have hn : n.natAbs ≤ 2 ^ 53 := by omega
  obtain ⟨e1, e2, e3⟩ := Dbl.encode_ok (s := decide (n < 0)) (n := n.natAbs * 2 ^ 1021) ⟨n.natAbs, 1021, hn, rfl⟩
    (lt_of_le_of_lt (Nat.mul_le_mul_right _ hn) (by rw [← pow_add]; exact Nat.pow_lt_pow_right (by norm_num) (by norm_num)))
  refine ⟨_, e1, ?_⟩
  have hi : (Dbl.encode (decide (n < 0)) (n.natAbs * 2 ^ 1021)).int = n * 2 ^ 1021 := by
    unfold Dbl.int
    rw [e2, e3, show (2 : Int) ^ 1021 = ((2 ^ 1021 : Nat) : Int) by rw [Nat.cast_pow, Nat.cast_ofNat]]
    generalize 2 ^ 1021 = w
    rcases lt_or_ge n 0 with hneg | hpos
    · rw [if_pos (by simpa using hneg)]
      push_cast
      rw [abs_of_neg hneg]; ring
    · rw [if_neg (by simpa using hpos)]
      push_cast
      rw [abs_of_nonneg hpos]
  rw [val_of_int (k := 1021) (by norm_num) hi, abs_le]
  norm_num at *
  constructor <;> linarith

noncomputable local instance exLibm : Libm where
  cos x := (exists_near (Real.cos x.val) (abs_cos_le_one _)).choose
  sin x := (exists_near (Real.sin x.val) (abs_sin_le_one _)).choose
  arccos x := x
  mean l := Dbl.div (l.foldl Dbl.add (Dbl.lit 0 1)) (Dbl.lit l.length 1)

theorem exAccurate : Spec.Accurate (2 ^ 51)⁻¹ :=
  ⟨fun x _ _ => (exists_near (Real.cos x.val) (abs_cos_le_one _)).choose_spec,
   fun x _ _ => (exists_near (Real.sin x.val) (abs_sin_le_one _)).choose_spec⟩

theorem exPoints : Spec.point (0, 0) = ⟨1, 0, 0⟩ ∧ Spec.point (30, 0) = ⟨√3 / 2, 1 / 2, 0⟩ ∧ Spec.point (30, 30) = ⟨3 / 4, √3 / 4, 1 / 2⟩ ∧
    Spec.point (0, 30) = ⟨√3 / 2, 0, 1 / 2⟩ := by
  have h30 : Spec.rad 30 = π / 6 := by unfold Spec.rad; ring
  have h0 : Spec.rad 0 = 0 := by unfold Spec.rad; ring
  have s3 : √3 / 2 * (√3 / 2) = 3 / 4 := by nlinarith [Real.mul_self_sqrt (show (0 : ℝ) ≤ 3 by norm_num)]
  simp only [Spec.point, h30, h0, cos_pi_div_six, sin_pi_div_six, cos_zero, sin_zero, s3]
  norm_num
  ring

/-- The cell between 0 and 30 degrees, with the radius of the earth. -/
example : ∃ M, areas ⟨fun _ _ _ _ => Dbl.lit 1 1, fun _ _ _ _ _ _ => (Dbl.lit 0 1, Dbl.lit 0 1), Dbl.lit 6371000 1⟩
      (⟨2, 2, fun i _ => if i = 0 then Dbl.lit 0 1 else Dbl.lit 30 1⟩ : Mat Dbl)
      (⟨2, 2, fun _ j => if j = 0 then Dbl.lit 0 1 else Dbl.lit 30 1⟩ : Mat Dbl) ⟨1, 2, fun _ _ => Dbl.lit 5000 1⟩ ⟨2, 1, fun _ _ => Dbl.lit 5000 1⟩ = .ok M ∧
    (M.get 0 0).isFin = true ∧
    5 / 8 * (6371000 ^ 2 * Spec.quadArea (Spec.point (0, 0)) (Spec.point (30, 0)) (Spec.point (30, 30)) (Spec.point (0, 30))) ≤
      (M.get 0 0).val + 6371000 ^ 2 * ((2 ^ 44)⁻¹ * 1 + (2 ^ 90)⁻¹) := by
  have v0 : (Dbl.lit 0 1).val = 0 := by
    rw [val_of_int (q := 0) (k := 0) (by norm_num) (by decide +kernel)]; simp
  have v30 : (Dbl.lit 30 1).val = 30 := by
    rw [val_of_int (q := 30) (k := 1074) (by norm_num) (by decide +kernel)]; norm_num
  have va : (Dbl.lit 6371000 1).val = 6371000 := by
    rw [val_of_int (q := 6371000) (k := 1074) (by norm_num) (by decide +kernel)]; norm_num
  have d0 : Spec.Degrees (Dbl.lit 0 1) := ⟨by decide +kernel, by rw [v0]; norm_num⟩
  have d30 : Spec.Degrees (Dbl.lit 30 1) := ⟨by decide +kernel, by rw [v30]; norm_num⟩
  obtain ⟨p1, p2, p3, p4⟩ := exPoints
  have s3 := Real.mul_self_sqrt (show (0 : ℝ) ≤ 3 by norm_num)
  have s0 := Real.sqrt_nonneg 3
  have lo : 1.73 < √3 := by rw [Real.lt_sqrt (by norm_num)]; norm_num
  have hi : √3 < 1.733 := by rw [Real.sqrt_lt' (by norm_num)]; norm_num
  obtain ⟨M, e, -, -, v⟩ := C119_double_spherical exAccurate
    ⟨fun _ _ _ _ => Dbl.lit 1 1, fun _ _ _ _ _ _ => (Dbl.lit 0 1, Dbl.lit 0 1), Dbl.lit 6371000 1⟩
    (by decide +kernel) (by rw [va]; norm_num) (by rw [va]; norm_num)
    (⟨2, 2, fun i _ => if i = 0 then Dbl.lit 0 1 else Dbl.lit 30 1⟩ : Mat Dbl)
    (⟨2, 2, fun _ j => if j = 0 then Dbl.lit 0 1 else Dbl.lit 30 1⟩ : Mat Dbl) ⟨1, 2, fun _ _ => Dbl.lit 5000 1⟩ ⟨2, 1, fun _ _ => Dbl.lit 5000 1⟩
    rfl rfl (by norm_num) (by norm_num)
    (by decide +kernel)
    (by decide +kernel)
  refine ⟨M, e, ?_⟩
  have on := @point_unit
  have key := v 0 0 _ 1 (1 / 2) (by norm_num) (by norm_num) (by norm_num) (by norm_num) (fun _ _ => rfl) (fun k l hk hl => by
    constructor
    · dsimp only; split; exacts [d0, d30]
    · dsimp only; split; exacts [d0, d30])
  simp only [if_true, Nat.zero_add, one_ne_zero, if_false, v0, v30, va] at key
  have t1 : Spec.LeftTurn (Spec.point (0, 0)) (Spec.point (30, 0)) (Spec.point (30, 30)) := by
    rw [p1, p2, p3]; unfold Spec.LeftTurn Spec.triple; nlinarith
  have t2 : Spec.LeftTurn (Spec.point (0, 0)) (Spec.point (30, 30)) (Spec.point (0, 30)) := by
    rw [p1, p3, p4]; unfold Spec.LeftTurn Spec.triple; nlinarith
  have ab : Spec.dist2 (Spec.point (0, 0)) (Spec.point (30, 0)) = 2 - √3 := by rw [p1, p2]; unfold Spec.dist2; nlinarith
  have bc : Spec.dist2 (Spec.point (30, 0)) (Spec.point (30, 30)) = 2 - √3 := by rw [p2, p3]; unfold Spec.dist2; nlinarith
  have ca : Spec.dist2 (Spec.point (30, 30)) (Spec.point (0, 0)) = 1 / 2 := by rw [p1, p3]; unfold Spec.dist2; nlinarith
  have ac : Spec.dist2 (Spec.point (0, 0)) (Spec.point (30, 30)) = 1 / 2 := by rw [p1, p3]; unfold Spec.dist2; nlinarith
  have cd : Spec.dist2 (Spec.point (30, 30)) (Spec.point (0, 30)) = 3 / 4 * (2 - √3) := by rw [p3, p4]; unfold Spec.dist2; nlinarith
  have da : Spec.dist2 (Spec.point (0, 30)) (Spec.point (0, 0)) = 2 - √3 := by rw [p1, p4]; unfold Spec.dist2; nlinarith
  have tt1 : Spec.triple (Spec.point (0, 0)) (Spec.point (30, 0)) (Spec.point (30, 30)) ^ 2 = 1 / 16 := by
    rw [p1, p2, p3]; unfold Spec.triple; norm_num
  have tt2 : Spec.triple (Spec.point (0, 0)) (Spec.point (30, 30)) (Spec.point (0, 30)) ^ 2 = 3 / 64 := by
    rw [p1, p3, p4]; unfold Spec.triple; nlinarith
  have m : (2 - √3) * (2 - √3) ≤ 0.27 * 0.27 := mul_le_mul (by linarith) (by linarith) (by linarith) (by norm_num)
  obtain ⟨k1, k2, -⟩ := key ⟨t1, t2⟩ ⟨smallTri_of (on _) (on _) (on _) t1 (by norm_num) (by rw [ab]; linarith) (by rw [bc]; linarith)
      (by rw [ca]; norm_num) (by rw [ab, bc, ca, tt1]; nlinarith),
    smallTri_of (on _) (on _) (on _) t2 (by norm_num) (by rw [ac]; norm_num) (by rw [cd]; linarith)
      (by rw [da]; linarith) (by rw [ac, cd, da, tt2]; nlinarith)⟩
  refine ⟨k1, ?_⟩
  norm_num at k2 ⊢
  exact k2

end Example
end SG
