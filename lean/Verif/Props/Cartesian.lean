import Verif.Props.Geometry
import Mathlib.Analysis.SpecialFunctions.Trigonometric.Bounds
/-! # C75: the points of `lonlat2cart` (exact arithmetic) -/

namespace SG
open Real

namespace Spec
/-- Degrees to radians. -/
noncomputable def rad (x : ℝ) : ℝ := x / 180 * π
end Spec

theorem cart_get (lons lats : Mat ℝ) (r : ℝ) (c : Mat (V3 ℝ)) (h : lonlat2cart lons lats r = .ok c) (i j : Nat) :
    c.get i j = ⟨cos (Spec.rad (lons.get i j)) * cos (Spec.rad (lats.get i j)),
      sin (Spec.rad (lons.get i j)) * cos (Spec.rad (lats.get i j)), sin (Spec.rad (lats.get i j))⟩ := by
  have e : ∀ x : ℝ, (Arith.radians x : ℝ) = Spec.rad x := by
    intro x
    show x * π / 180 = x / 180 * π
    ring
  unfold lonlat2cart at h
  split at h
  · cases h
  · cases h
    show lonlat2cart1 (lons.get i j) (lats.get i j) = _
    unfold lonlat2cart1
    rw [e, e]
    rfl

/-- **C75** (axes): longitude 0 on the equator is on the first axis, longitude 90 on the second, the north pole on the third. -/
theorem C75_axes (lons lats : Mat ℝ) (r : ℝ) (c : Mat (V3 ℝ)) (h : lonlat2cart lons lats r = .ok c) (i j : Nat) :
    (lons.get i j = 0 → lats.get i j = 0 → c.get i j = ⟨1, 0, 0⟩) ∧
    (lons.get i j = 90 → lats.get i j = 0 → c.get i j = ⟨0, 1, 0⟩) ∧
    (lats.get i j = 90 → c.get i j = ⟨0, 0, 1⟩) ∧
    (lats.get i j = -90 → c.get i j = ⟨0, 0, -1⟩) := by
  rw [cart_get lons lats r c h]
  have e0 : Spec.rad 0 = 0 := by unfold Spec.rad; ring
  have e90 : Spec.rad 90 = π / 2 := by unfold Spec.rad; ring
  have em : Spec.rad (-90) = -(π / 2) := by unfold Spec.rad; ring
  refine ⟨fun a b => ?_, fun a b => ?_, fun a => ?_, fun a => ?_⟩
  · rw [a, b, e0]; simp
  · rw [a, b, e0, e90]; simp
  · rw [a, e90]; simp
  · rw [a, em]; simp

/-- **C75** (angles): the scalar product of two returned points is the cosine of the angle between them, by the spherical law of cosines. -/
theorem C75_law_of_cosines (lons lats : Mat ℝ) (r : ℝ) (c : Mat (V3 ℝ)) (h : lonlat2cart lons lats r = .ok c) (i j k l : Nat) :
    Spec.inner3 (c.get i j) (c.get k l) =
      sin (Spec.rad (lats.get i j)) * sin (Spec.rad (lats.get k l)) +
      cos (Spec.rad (lats.get i j)) * cos (Spec.rad (lats.get k l)) * cos (Spec.rad (lons.get k l - lons.get i j)) := by
  rw [cart_get lons lats r c h, cart_get lons lats r c h]
  unfold Spec.inner3
  dsimp only
  rw [show Spec.rad (lons.get k l - lons.get i j) = Spec.rad (lons.get k l) - Spec.rad (lons.get i j) by unfold Spec.rad; ring,
    Real.cos_sub]
  ring

/-- **C75** (faithful): away from the poles two returned points coincide only if their latitudes are equal and their longitudes differ by a
multiple of 360 degrees. -/
theorem C75_same_point_iff (lons lats : Mat ℝ) (r : ℝ) (c : Mat (V3 ℝ)) (h : lonlat2cart lons lats r = .ok c) (i j k l : Nat)
    (h1 : |lats.get i j| < 90) (h2 : |lats.get k l| < 90) :
    c.get i j = c.get k l ↔ lats.get i j = lats.get k l ∧ ∃ n : ℤ, lons.get k l = lons.get i j + 360 * n := by
  rw [cart_get lons lats r c h, cart_get lons lats r c h]
  generalize lons.get i j = x at *
  generalize lons.get k l = x' at *
  generalize lats.get i j = y at *
  generalize lats.get k l = y' at *
  have hpi := Real.pi_pos
  have range : ∀ y : ℝ, |y| < 90 → -(π / 2) < Spec.rad y ∧ Spec.rad y < π / 2 := by
    intro y hy
    obtain ⟨a, b⟩ := abs_lt.1 hy
    unfold Spec.rad
    constructor <;> nlinarith
  constructor
  · intro e
    injection e with e1 e2 e3
    obtain ⟨a, b⟩ := range y h1
    obtain ⟨a', b'⟩ := range y' h2
    have hy : Spec.rad y = Spec.rad y' := Real.injOn_sin ⟨a.le, b.le⟩ ⟨a'.le, b'.le⟩ e3
    have hyy : y = y' := by
      unfold Spec.rad at hy
      have := mul_right_cancel₀ (ne_of_gt hpi) hy
      linarith
    refine ⟨hyy, ?_⟩
    have hc : cos (Spec.rad y') ≠ 0 := ne_of_gt (Real.cos_pos_of_mem_Ioo ⟨a', b'⟩)
    rw [hy] at e1 e2
    have c1 := mul_right_cancel₀ hc e1
    have c2 := mul_right_cancel₀ hc e2
    have hcos : cos (Spec.rad x' - Spec.rad x) = 1 := by
      rw [Real.cos_sub, ← c1, ← c2]
      nlinarith [Real.sin_sq_add_cos_sq (Spec.rad x)]
    obtain ⟨n, hn⟩ := (Real.cos_eq_one_iff _).1 hcos
    refine ⟨n, ?_⟩
    unfold Spec.rad at hn
    have : π * (x' - x - 360 * n) = 0 := by linarith
    rcases mul_eq_zero.1 this with h | h
    · exact absurd h (ne_of_gt hpi)
    · linarith
  · rintro ⟨rfl, n, rfl⟩
    have : Spec.rad (x + 360 * n) = Spec.rad x + n * (2 * π) := by unfold Spec.rad; ring
    rw [this, Real.cos_add_int_mul_two_pi, Real.sin_add_int_mul_two_pi]

example : ∃ c, lonlat2cart (⟨1, 2, fun _ j => if j = 0 then 0 else 90⟩ : Mat ℝ) ⟨1, 2, fun _ _ => 0⟩ 1 = .ok c ∧
    c.get 0 0 = ⟨1, 0, 0⟩ ∧ c.get 0 1 = ⟨0, 1, 0⟩ ∧ c.get 0 0 ≠ c.get 0 1 := by
  refine ⟨_, if_neg (by simp), ?_⟩
  have hok : lonlat2cart (⟨1, 2, fun _ j => if j = 0 then 0 else 90⟩ : Mat ℝ) ⟨1, 2, fun _ _ => 0⟩ 1 = .ok _ := if_neg (by simp)
  have a := (C75_axes _ _ _ _ hok 0 0).1 (by simp) rfl
  have b := (C75_axes _ _ _ _ hok 0 1).2.1 (by simp) rfl
  refine ⟨a, b, ?_⟩
  rw [a, b]
  intro e
  injection e with e1
  norm_num at e1

end SG
