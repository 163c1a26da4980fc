import Verif.Props.DoubleAreas
import Verif.Props.ComputeGrid
import Verif.Props.Nearest
import Verif.Props.MatchEdges
/-! # The thresholds of C12, C41 and C61 in double precision

The theorems of these properties hold for every arithmetic, with the thresholds as constants of it; here are the numbers. -/
set_option linter.unusedSectionVars false
set_option exponentiation.threshold 5000

namespace SG
open Dbl

section
variable [Libm]

theorem planar_val : (PyFloat.planar : Dbl).val = 10000 := by
  show (Dbl.lit 10000 1).val = 10000
  rw [val_of_int (q := 10000) (k := 1074) (by norm_num) (by decide +kernel)]; norm_num

/-- **C61** (10 km): in double precision the planar formula is used exactly when the two means of the edge lengths are numbers below 10000. -/
theorem C61_ten_km (geod : Geod Dbl) (xg yg : Mat Dbl) (m n : Nat) (h : Spec.Ringed xg yg m n) :
    ∃ g, tomitgridRing geod xg yg m n = .ok g ∧ ∃ planar : Bool,
      (planar = true ↔
        ((PyFloat.mean ((Spec.tile xg yg m n).xLengths geod.inv)).isNaN = false ∧ (PyFloat.mean ((Spec.tile xg yg m n).xLengths geod.inv)).val < 10000) ∧
        ((PyFloat.mean ((Spec.tile xg yg m n).yLengths geod.inv)).isNaN = false ∧ (PyFloat.mean ((Spec.tile xg yg m n).yLengths geod.inv)).val < 10000)) ∧
      ∀ f, Spec.kind f = .area → ∃ M, g f = .arr M ∧ ∀ i j, i < Spec.nrows f m → j < Spec.ncols f n →
        M.get i j = (Spec.tile xg yg m n).entry geod.inv (Spec.quad geod planar) f i j := by
  obtain ⟨g, e, v⟩ := C61_area_formula geod xg yg m n h
  refine ⟨g, e, _, ?_, v⟩
  have key : ∀ x : Dbl, PyFloat.lt x PyFloat.planar = true ↔ x.isNaN = false ∧ x.val < 10000 := by
    intro x
    have hp : (PyFloat.planar : Dbl).isNaN = false := fin_not_nan (show (Dbl.lit 10000 1).isFin = true by decide +kernel)
    show Dbl.lt x PyFloat.planar = true ↔ _
    constructor
    · intro hx
      have hn := (Dbl.lt_iff.1 hx).1
      exact ⟨hn, planar_val ▸ (lt_val hn hp).1 hx⟩
    · rintro ⟨hn, hx⟩
      exact (lt_val hn hp).2 (by rw [planar_val]; exact hx)
  unfold Spec.Tile.usePlanar
  rw [Bool.and_eq_true, key, key]

theorem tol_val : (PyFloat.tol : Dbl).val = 4722366482869645 / 2 ^ 72 := by
  show (Dbl.lit 1 (10 ^ 6)).val = _
  rw [val_of_int (q := 4722366482869645) (k := 1002) (by norm_num) (by decide +kernel)]; norm_num

theorem four_val : (PyFloat.four : Dbl).val = 4 := by
  show (Dbl.lit 4 1).val = 4
  rw [val_of_int (q := 4) (k := 1074) (by norm_num) (by decide +kernel)]; norm_num

/-- **C41** (tolerance): in double precision, the tolerance is the millionth part of the mean diagonal of the tiles, up to rounding. -/
theorem C41_millionth (geod : Geod Dbl) (aXG aYG bXG bYG : Mat Dbl) (h : (Spec.tolerance geod aXG aYG bXG bYG).isFin = true) :
    ∃ four d1 d2 d3 d4 : Dbl, four.val = 4 ∧ d1 = geod.inv (aXG.get 0 0) (aYG.get 0 0) (aXG.get (aXG.rows - 1) (aXG.cols - 1)) (aYG.get (aXG.rows - 1) (aXG.cols - 1)) ∧
      d2 = geod.inv (aXG.get (aXG.rows - 1) 0) (aYG.get (aXG.rows - 1) 0) (aXG.get 0 (aXG.cols - 1)) (aYG.get 0 (aXG.cols - 1)) ∧
      d3 = geod.inv (bXG.get 0 0) (bYG.get 0 0) (bXG.get (bXG.rows - 1) (bXG.cols - 1)) (bYG.get (bXG.rows - 1) (bXG.cols - 1)) ∧
      d4 = geod.inv (bXG.get (bXG.rows - 1) 0) (bYG.get (bXG.rows - 1) 0) (bXG.get 0 (bXG.cols - 1)) (bYG.get 0 (bXG.cols - 1)) ∧
      |(Spec.tolerance geod aXG aYG bXG bYG).val - ((d1 +ₚ d2 +ₚ d3 +ₚ d4) /ₚ four).val / 10 ^ 6| ≤
        (2 ^ 51)⁻¹ * (|((d1 +ₚ d2 +ₚ d3 +ₚ d4) /ₚ four).val| / 10 ^ 6) + 1 / 2 / U := by
  refine ⟨_, _, _, _, _, four_val, rfl, rfl, rfl, rfl, ?_⟩
  have key : ∀ x : Dbl, (Dbl.mul x PyFloat.tol).isFin = true →
      |(Dbl.mul x PyFloat.tol).val - x.val / 10 ^ 6| ≤ (2 ^ 51)⁻¹ * (|x.val| / 10 ^ 6) + 1 / 2 / U := by
    intro x hx
    obtain ⟨-, -, e⟩ := mul_err x _ hx
    rw [tol_val] at e
    have b := abs_nonneg x.val
    have e1 : |x.val * (4722366482869645 / 2 ^ 72) - x.val / 10 ^ 6| ≤ |x.val| * (2 ^ 73)⁻¹ := by
      rw [show x.val * (4722366482869645 / 2 ^ 72) - x.val / 10 ^ 6 = x.val * (4722366482869645 / 2 ^ 72 - 1 / 10 ^ 6) by ring, abs_mul]
      refine mul_le_mul_of_nonneg_left ?_ b
      rw [abs_le]
      constructor <;> norm_num
    rw [abs_mul, abs_of_pos (show (0 : ℝ) < 4722366482869645 / 2 ^ 72 by norm_num)] at e
    have t := abs_sub_le (Dbl.mul x PyFloat.tol).val (x.val * (4722366482869645 / 2 ^ 72)) (x.val / 10 ^ 6)
    have f : (2 ^ 53 : ℝ)⁻¹ * (|x.val| * (4722366482869645 / 2 ^ 72)) + |x.val| * (2 ^ 73)⁻¹ ≤ (2 ^ 51)⁻¹ * (|x.val| / 10 ^ 6) := by
      rw [show (2 ^ 53 : ℝ)⁻¹ * (|x.val| * (4722366482869645 / 2 ^ 72)) + |x.val| * (2 ^ 73)⁻¹ =
        |x.val| * ((2 ^ 53 : ℝ)⁻¹ * (4722366482869645 / 2 ^ 72) + (2 ^ 73)⁻¹) by ring, show (2 ^ 51 : ℝ)⁻¹ * (|x.val| / 10 ^ 6) = |x.val| * ((2 ^ 51 : ℝ)⁻¹ / 10 ^ 6) by ring]
      exact mul_le_mul_of_nonneg_left (by norm_num) b
    linarith
  exact key _ h

theorem c1e10_val : (PyFloat.c1e10 : Dbl).val = 10 ^ 10 := by
  show (Dbl.lit (10 ^ 10) 1).val = _
  rw [val_of_int (q := 10 ^ 10) (k := 1074) (by norm_num) (by decide +kernel)]; norm_num

/-- **C12** (1e10): in double precision `nearest` returns `(-1,-1,d)` with `d` equal to `1e10` exactly when no distance is a number below `1e10`. -/
theorem C12_sentinel_number (geod : Geod Dbl) (lon lat : Dbl) (lons lats : NArr Dbl) (hs : Spec.SameShape lons lats) (hw : lons.WF) :
    ∃ d : Dbl, d.val = 10 ^ 10 ∧ (nearest geod lon lat lons lats = .ok (-1, -1, d) ↔ ∀ i j, i < lons.mat.rows → j < lons.mat.cols →
      ¬ ((Spec.dist geod lon lat lons.mat lats.mat i j).isNaN = false ∧ (Spec.dist geod lon lat lons.mat lats.mat i j).val < 10 ^ 10)) := by
  refine ⟨_, c1e10_val, (C12_sentinel_iff geod lon lat lons lats hs hw).trans ?_⟩
  refine forall_congr' fun i => forall_congr' fun j => forall_congr' fun _ => forall_congr' fun _ => ?_
  have hp : (PyFloat.c1e10 : Dbl).isNaN = false := fin_not_nan (show (Dbl.lit (10 ^ 10) 1).isFin = true by decide +kernel)
  rw [← Bool.not_eq_true]
  refine not_congr ?_
  show Dbl.lt _ PyFloat.c1e10 = true ↔ _
  rw [← c1e10_val]
  constructor
  · intro hx
    have hn := (Dbl.lt_iff.1 hx).1
    exact ⟨hn, (lt_val hn hp).1 hx⟩
  · rintro ⟨hn, hx⟩
    exact (lt_val hn hp).2 hx

end

/-! ## Cases -/

namespace ExThresholds

local instance libm : Libm := ⟨id, id, id, fun l => Dbl.div (l.foldl Dbl.add (Dbl.lit 0 1)) (Dbl.lit l.length 1)⟩

/-- All distances are `d`. -/
def geod (d : Nat) : Geod Dbl := ⟨fun _ _ _ _ => Dbl.lit d 1, fun _ _ _ _ _ _ => (Dbl.lit 0 1, Dbl.lit 0 1), Dbl.lit 6371000 1⟩

def grid : Mat Dbl := ⟨5, 5, fun i j => Dbl.lit (i + 10 * j) 1⟩

theorem means_9999 : PyFloat.mean ((Spec.tile grid grid 1 1).xLengths (geod 9999).inv) = Dbl.lit 9999 1 ∧
    PyFloat.mean ((Spec.tile grid grid 1 1).yLengths (geod 9999).inv) = Dbl.lit 9999 1 := by decide +kernel
theorem means_10000 : PyFloat.mean ((Spec.tile grid grid 1 1).xLengths (geod 10000).inv) = Dbl.lit 10000 1 ∧
    PyFloat.mean ((Spec.tile grid grid 1 1).yLengths (geod 10000).inv) = Dbl.lit 10000 1 := by decide +kernel

/-- Edges of 9999 m: planar; of 10000 m: spherical. -/
example : (∃ g, tomitgridRing (geod 9999) grid grid 1 1 = .ok g ∧ ∀ f, Spec.kind f = .area → ∃ M, g f = .arr M ∧ ∀ i j, i < Spec.nrows f 1 → j < Spec.ncols f 1 →
      M.get i j = (Spec.tile grid grid 1 1).entry (geod 9999).inv (Spec.quad (geod 9999) true) f i j) ∧
    ∃ g, tomitgridRing (geod 10000) grid grid 1 1 = .ok g ∧ ∀ f, Spec.kind f = .area → ∃ M, g f = .arr M ∧ ∀ i j, i < Spec.nrows f 1 → j < Spec.ncols f 1 →
      M.get i j = (Spec.tile grid grid 1 1).entry (geod 10000).inv (Spec.quad (geod 10000) false) f i j := by
  constructor
  · obtain ⟨g, e, b, hb, v⟩ := C61_ten_km (geod 9999) grid grid 1 1 ⟨rfl, rfl, rfl, rfl⟩
    rw [means_9999.1, means_9999.2] at hb
    have v0 : (Dbl.lit 9999 1).val = 9999 := by
      rw [val_of_int (q := 9999) (k := 1074) (by norm_num) (by decide +kernel)]; norm_num
    have hn : (Dbl.lit 9999 1).isNaN = false := by decide +kernel
    cases hb.2 ⟨⟨hn, by rw [v0]; norm_num⟩, hn, by rw [v0]; norm_num⟩
    exact ⟨g, e, v⟩
  · obtain ⟨g, e, b, hb, v⟩ := C61_ten_km (geod 10000) grid grid 1 1 ⟨rfl, rfl, rfl, rfl⟩
    rw [means_10000.1, means_10000.2] at hb
    cases b with
    | true =>
      have := (hb.1 rfl).1.2
      rw [show (Dbl.lit 10000 1).val = 10000 from planar_val] at this
      exact absurd this (lt_irrefl _)
    | false => exact ⟨g, e, v⟩

/-- Diagonals of 5 km: the tolerance is a finite number. -/
example : (Spec.tolerance (geod 5000) grid grid grid grid).isFin = true := by decide +kernel

/-- A point at 9999999999 m is found, one at 1e10 m is not. -/
example : Spec.SameShape (.ofC grid) (.ofC grid : NArr Dbl) ∧ (NArr.ofC grid).WF ∧
    (nearest (geod 9999999999) (Dbl.lit 0 1) (Dbl.lit 0 1) (.ofC grid) (.ofC grid)).toOption = some (0, 0, Dbl.lit 9999999999 1) ∧
    (nearest (geod (10 ^ 10)) (Dbl.lit 0 1) (Dbl.lit 0 1) (.ofC grid) (.ofC grid)).toOption = some (-1, -1, Dbl.lit (10 ^ 10) 1) :=
  ⟨by unfold Spec.SameShape; decide, NArr.ofC_wf _, by decide +kernel, by decide +kernel⟩

end ExThresholds

end SG
