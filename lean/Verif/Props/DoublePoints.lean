import Verif.Props.DoubleAreas
/-! # C142: `lonlat2cart` in double precision -/
set_option linter.unusedSectionVars false
set_option exponentiation.threshold 5000

namespace SG
open Real

namespace Spec
/-- The real numbers that are the coordinates. -/
noncomputable def vals (p : V3 Dbl) : V3 ℝ := ⟨p.x.val, p.y.val, p.z.val⟩

/-- All three coordinates are finite. -/
def Finite3 (p : V3 Dbl) : Prop := p.x.isFin = true ∧ p.y.isFin = true ∧ p.z.isFin = true
end Spec

theorem chord_swap (p q : V3 ℝ) : Spec.chord p q = Spec.chord q p := by
  unfold Spec.chord Spec.dist2; congr 1; ring

theorem chord_tri (p q r : V3 ℝ) : Spec.chord p r ≤ Spec.chord p q + Spec.chord q r := by
  rw [dist_eq_len3, dist_eq_len3, dist_eq_len3]
  have := len3_add (q.x - p.x) (q.y - p.y) (q.z - p.z) (r.x - q.x) (r.y - q.y) (r.z - q.z)
  convert this using 2 <;> ring

section
variable [Libm]

theorem cart_at {lons lats : Mat Dbl} {rad : Dbl} {c : Mat (V3 Dbl)} (h : lonlat2cart lons lats rad = .ok c) (i j : Nat) :
    c.get i j = lonlat2cart1 (lons.get i j) (lats.get i j) := by
  unfold lonlat2cart at h
  split at h
  · cases h
  · injection h with h
    rw [← h]

/-- **C142** (accuracy): with a C library whose sine and cosine are right up to `2⁻⁵¹`, every point computed in doubles is finite, at most `2⁻⁴⁷` away
from the exact point of the given longitude and latitude, and so at a distance between `1 - 2⁻⁴⁷` and `1 + 2⁻⁴⁷` from the centre. -/
theorem C142_double_points (acc : Spec.Accurate (2 ^ 51)⁻¹) (lons lats : Mat Dbl) (rad : Dbl) (c : Mat (V3 Dbl)) (h : lonlat2cart lons lats rad = .ok c)
    (i j : Nat) (h1 : Spec.Degrees (lons.get i j)) (h2 : Spec.Degrees (lats.get i j)) :
    Spec.Finite3 (c.get i j) ∧ Spec.chord (Spec.point ((lons.get i j).val, (lats.get i j).val)) (Spec.vals (c.get i j)) ≤ (2 ^ 47)⁻¹ ∧
      |√(Spec.inner3 (Spec.vals (c.get i j)) (Spec.vals (c.get i j))) - 1| ≤ (2 ^ 47)⁻¹ := by
  obtain ⟨⟨x, y, z⟩, e⟩ := cart_err acc h1 h2
  rw [← cart_at h] at x y z e
  have e : Spec.chord (Spec.point ((lons.get i j).val, (lats.get i j).val)) (Spec.vals (c.get i j)) ≤ (2 ^ 47)⁻¹ := e
  refine ⟨⟨x.1, y.1, z.1⟩, e, ?_⟩
  have hv : √(Spec.inner3 (Spec.vals (c.get i j)) (Spec.vals (c.get i j))) = Spec.chord ⟨0, 0, 0⟩ (Spec.vals (c.get i j)) := by
    unfold Spec.chord Spec.dist2 Spec.inner3; congr 1; ring
  have hp : Spec.chord ⟨0, 0, 0⟩ (Spec.point ((lons.get i j).val, (lats.get i j).val)) = 1 := by
    have : Spec.dist2 ⟨0, 0, 0⟩ (Spec.point ((lons.get i j).val, (lats.get i j).val)) = 1 := by
      unfold Spec.dist2 Spec.point
      have a := Real.sin_sq_add_cos_sq (Spec.rad (lons.get i j).val)
      have b := Real.sin_sq_add_cos_sq (Spec.rad (lats.get i j).val)
      dsimp only
      linear_combination (cos (Spec.rad (lats.get i j).val)) ^ 2 * a + b
    unfold Spec.chord
    rw [this, Real.sqrt_one]
  have t1 := chord_tri ⟨0, 0, 0⟩ (Spec.point ((lons.get i j).val, (lats.get i j).val)) (Spec.vals (c.get i j))
  have t2 := chord_tri ⟨0, 0, 0⟩ (Spec.vals (c.get i j)) (Spec.point ((lons.get i j).val, (lats.get i j).val))
  rw [chord_swap (Spec.vals (c.get i j))] at t2
  rw [hv, abs_le]
  constructor <;> linarith

/-- **C142** (different points): points that are more than `2⁻⁴⁶` apart on the unit sphere do not become the same triple. -/
theorem C142_different_points (acc : Spec.Accurate (2 ^ 51)⁻¹) (lons lats : Mat Dbl) (rad : Dbl) (c : Mat (V3 Dbl)) (h : lonlat2cart lons lats rad = .ok c)
    (i j k l : Nat) (h1 : Spec.Degrees (lons.get i j)) (h2 : Spec.Degrees (lats.get i j)) (h3 : Spec.Degrees (lons.get k l)) (h4 : Spec.Degrees (lats.get k l))
    (hne : (2 ^ 46)⁻¹ < Spec.chord (Spec.point ((lons.get i j).val, (lats.get i j).val)) (Spec.point ((lons.get k l).val, (lats.get k l).val))) :
    c.get i j ≠ c.get k l := by
  intro he
  obtain ⟨-, a, -⟩ := C142_double_points acc lons lats rad c h i j h1 h2
  obtain ⟨-, b, -⟩ := C142_double_points acc lons lats rad c h k l h3 h4
  rw [he] at a
  have t := chord_tri (Spec.point ((lons.get i j).val, (lats.get i j).val)) (Spec.vals (c.get k l)) (Spec.point ((lons.get k l).val, (lats.get k l).val))
  rw [chord_swap (Spec.vals (c.get k l))] at t
  norm_num at *
  linarith

/-- **C142** (full turns): longitudes that differ by 360 give points at most `2⁻⁴⁶` apart. -/
theorem C142_full_turn (acc : Spec.Accurate (2 ^ 51)⁻¹) (lons lats : Mat Dbl) (rad : Dbl) (c : Mat (V3 Dbl)) (h : lonlat2cart lons lats rad = .ok c)
    (i j k l : Nat) (h1 : Spec.Degrees (lons.get i j)) (h2 : Spec.Degrees (lats.get i j)) (h3 : Spec.Degrees (lons.get k l))
    (hlat : lats.get k l = lats.get i j) (hlon : (lons.get k l).val = (lons.get i j).val + 360) :
    Spec.chord (Spec.vals (c.get i j)) (Spec.vals (c.get k l)) ≤ (2 ^ 46)⁻¹ := by
  obtain ⟨-, a, -⟩ := C142_double_points acc lons lats rad c h i j h1 h2
  obtain ⟨-, b, -⟩ := C142_double_points acc lons lats rad c h k l h3 (by rw [hlat]; exact h2)
  have hp : Spec.point ((lons.get k l).val, (lats.get k l).val) = Spec.point ((lons.get i j).val, (lats.get i j).val) := by
    rw [hlat, hlon]
    unfold Spec.point
    have : Spec.rad ((lons.get i j).val + 360) = Spec.rad (lons.get i j).val + 2 * π := by unfold Spec.rad; ring
    dsimp only
    rw [this, Real.cos_add_two_pi, Real.sin_add_two_pi]
  rw [hp] at b
  rw [chord_swap] at a
  have t := chord_tri (Spec.vals (c.get i j)) (Spec.point ((lons.get i j).val, (lats.get i j).val)) (Spec.vals (c.get k l))
  norm_num at *
  linarith

end

/-! ## Cases -/

attribute [local instance] exLibm

def column3 (a b c : Dbl) : Mat Dbl := ⟨3, 1, fun i _ => if i = 0 then a else if i = 1 then b else c⟩

theorem column3_get (a b c : Dbl) : (column3 a b c).get 0 0 = a ∧ (column3 a b c).get 1 0 = b ∧ (column3 a b c).get 2 0 = c := by
  simp [column3]

/-- The points at longitudes 0, 30 and 360 on the equator. -/
def exTurn : Mat Dbl := column3 (Dbl.lit 0 1) (Dbl.lit 30 1) (Dbl.lit 360 1)
def exEquator : Mat Dbl := ⟨3, 1, fun _ _ => Dbl.lit 0 1⟩

example : ∃ c, lonlat2cart exTurn exEquator (Dbl.lit 1 1) = .ok c ∧ c.get 0 0 ≠ c.get 1 0 ∧
    Spec.chord (Spec.vals (c.get 0 0)) (Spec.vals (c.get 2 0)) ≤ (2 ^ 46)⁻¹ := by
  have v0 : (Dbl.lit 0 1).val = 0 := by
    rw [val_of_int (q := 0) (k := 0) (by norm_num) (by decide +kernel)]; simp
  have v30 : (Dbl.lit 30 1).val = 30 := by
    rw [val_of_int (q := 30) (k := 1074) (by norm_num) (by decide +kernel)]; norm_num
  have v360 : (Dbl.lit 360 1).val = 360 := by
    rw [val_of_int (q := 360) (k := 1074) (by norm_num) (by decide +kernel)]; norm_num
  have d0 : Spec.Degrees (Dbl.lit 0 1) := ⟨by decide +kernel, by rw [v0]; norm_num⟩
  have d30 : Spec.Degrees (Dbl.lit 30 1) := ⟨by decide +kernel, by rw [v30]; norm_num⟩
  have d360 : Spec.Degrees (Dbl.lit 360 1) := ⟨by decide +kernel, by rw [v360]; norm_num⟩
  obtain ⟨x0, x1, x2⟩ : exTurn.get 0 0 = _ ∧ exTurn.get 1 0 = _ ∧ exTurn.get 2 0 = _ := column3_get _ _ _
  have y : ∀ i j, exEquator.get i j = Dbl.lit 0 1 := fun _ _ => rfl
  obtain ⟨c, hc⟩ : ∃ c, lonlat2cart exTurn exEquator (Dbl.lit 1 1) = .ok c := by
    unfold lonlat2cart
    rw [if_neg (by simp [exTurn, exEquator, column3])]
    exact ⟨_, rfl⟩
  refine ⟨c, hc, ?_, ?_⟩
  · refine C142_different_points exAccurate _ _ _ _ hc 0 0 1 0 (by rw [x0]; exact d0) (by rw [y]; exact d0) (by rw [x1]; exact d30) (by rw [y]; exact d0) ?_
    rw [x0, x1, y, y, v0, v30, exPoints.1, exPoints.2.1]
    unfold Spec.chord
    rw [Real.lt_sqrt (by norm_num)]
    unfold Spec.dist2
    have : (0 : ℝ) ≤ (1 - √3 / 2) ^ 2 := sq_nonneg _
    norm_num at *
    nlinarith
  · exact C142_full_turn exAccurate _ _ _ _ hc 0 0 2 0 (by rw [x0]; exact d0) (by rw [y]; exact d0) (by rw [x2]; exact d360) rfl (by
      rw [x0, x2, v0, v360]; norm_num)

end SG
