import Verif.Props.ComputeGrid
import Mathlib.Algebra.BigOperators.Intervals
import Mathlib.Tactic.Abel
/-! # C25, C62: conservation of area and length in exact arithmetic -/

set_option linter.unusedSectionVars false

namespace SG
open Finset
variable {F : Type} [PyFloat F]

/-- Exact arithmetic: the float operations `+` and `0` are those of a commutative monoid. -/
class ExactAdd (F : Type) [PyFloat F] [AddCommMonoid F] : Prop where
  add_eq : ∀ x y : F, x +ₚ y = x + y
  zero_eq : (Arith.zero : F) = 0

theorem sum_range_two_mul {M : Type} [AddCommMonoid M] (f : Nat → M) (m : Nat) :
    ∑ a ∈ range (2 * m), f a = ∑ i ∈ range m, (f (2 * i) + f (2 * i + 1)) := by
  induction m with
  | zero => simp
  | succ k ih =>
    rw [show 2 * (k + 1) = 2 * k + 1 + 1 by omega, sum_range_succ, sum_range_succ, ih, sum_range_succ,
      add_assoc]

theorem sumOrZero_two [AddCommMonoid F] [ExactAdd F] (x y : F) (hx : PyFloat.isZero x = false)
    (hy : PyFloat.isZero y = false) : Spec.sumOrZero [x, y] = x + y := by
  unfold Spec.sumOrZero
  rw [if_neg (by simp [hx, hy])]
  simp [ExactAdd.add_eq]

theorem sumOrZero_four [AddCommMonoid F] [ExactAdd F] (x y z w : F) (hx : PyFloat.isZero x = false)
    (hy : PyFloat.isZero y = false) (hz : PyFloat.isZero z = false) (hw : PyFloat.isZero w = false) :
    Spec.sumOrZero [x, y, z, w] = x + y + z + w := by
  unfold Spec.sumOrZero
  rw [if_neg (by simp [hx, hy, hz, hw])]
  simp [ExactAdd.add_eq]

/-- **C25**: if no quarter-cell area is zero, the tracer-cell areas `RAC` add up to the sum of all `2m x 2n`
quarter-cell areas, each counted once. -/
theorem C25_area_conserved [AddCommMonoid F] [ExactAdd F] [ZeroLaw F] (geod : Geod F) (xg yg : Mat F)
    (m n : Nat) (h : Spec.Ringed xg yg m n)
    (hnz : ∀ a b : Nat, a < 2 * m → b < 2 * n → PyFloat.isZero ((Spec.tile xg yg m n).subA
      (Spec.quad geod ((Spec.tile xg yg m n).usePlanar geod.inv)) a b) = false) :
    ∃ (g : Grid F) (RAC : Mat F), tomitgridRing geod xg yg m n = .ok g ∧
      g .RAC = .arr RAC ∧
      ∑ i ∈ range m, ∑ j ∈ range n, RAC.get i j =
        ∑ a ∈ range (2 * m), ∑ b ∈ range (2 * n),
          (Spec.tile xg yg m n).subA (Spec.quad geod ((Spec.tile xg yg m n).usePlanar geod.inv)) a b := by
  obtain ⟨g, e, v⟩ := C61_area_formula geod xg yg m n h
  obtain ⟨RAC, hR, hv⟩ := v .RAC rfl
  refine ⟨g, RAC, e, hR, ?_⟩
  rw [sum_range_two_mul]
  refine sum_congr rfl fun i hi => ?_
  rw [sum_range_two_mul, sum_range_two_mul, ← sum_add_distrib]
  refine sum_congr rfl fun j hj => ?_
  have hi := mem_range.1 hi
  have hj := mem_range.1 hj
  rw [hv i j hi hj]
  have e1 : (2 * (i : Int) + 1 - 1) = ((2 * i : Nat) : Int) := by omega
  have e2 : (2 * (j : Int) + 1 - 1) = ((2 * j : Nat) : Int) := by omega
  have e3 : (2 * (i : Int) + 1) = ((2 * i + 1 : Nat) : Int) := by omega
  have e4 : (2 * (j : Int) + 1) = ((2 * j + 1 : Nat) : Int) := by omega
  show Spec.sumOrZero [(Spec.tile xg yg m n).subA _ (2 * (i : Int) + 1 - 1) (2 * (j : Int) + 1 - 1),
      (Spec.tile xg yg m n).subA _ (2 * (i : Int) + 1) (2 * (j : Int) + 1 - 1),
      (Spec.tile xg yg m n).subA _ (2 * (i : Int) + 1) (2 * (j : Int) + 1),
      (Spec.tile xg yg m n).subA _ (2 * (i : Int) + 1 - 1) (2 * (j : Int) + 1)] = _
  rw [e1, e2, e3, e4, sumOrZero_four _ _ _ _ (hnz _ _ (by omega) (by omega))
    (hnz _ _ (by omega) (by omega)) (hnz _ _ (by omega) (by omega)) (hnz _ _ (by omega) (by omega))]
  abel

/-- **C62**: if no half-edge is zero, the `DXG` entries along column `j` add up to the lengths of all half-edges
on that grid line (and likewise `DYG` along a row), each counted once. -/
theorem C62_dxg_conserved [AddCommMonoid F] [ExactAdd F] [ZeroLaw F] (geod : Geod F) (xg yg : Mat F)
    (m n : Nat) (h : Spec.Ringed xg yg m n)
    (hnz : ∀ a b : Nat, a < 2 * m → b ≤ 2 * n →
      PyFloat.isZero ((Spec.tile xg yg m n).subX geod.inv a b) = false) :
    ∃ (g : Grid F) (DXG : Mat F), tomitgridRing geod xg yg m n = .ok g ∧ g .DXG = .arr DXG ∧
      ∀ j ≤ n, ∑ i ∈ range m, DXG.get i j =
        ∑ a ∈ range (2 * m), (Spec.tile xg yg m n).subX geod.inv a (2 * j : Nat) := by
  obtain ⟨planar, g, e, v⟩ := C23_tomitgrid_entries geod xg yg m n h
  obtain ⟨M, hR, hv⟩ := v .DXG
  refine ⟨g, M, e, hR, fun j hj => ?_⟩
  rw [sum_range_two_mul]
  refine sum_congr rfl fun i hi => ?_
  have hi := mem_range.1 hi
  rw [hv i j hi (by simp only [Spec.ncols]; omega)]
  have e1 : (2 * (i : Int) + 1 - 1) = ((2 * i : Nat) : Int) := by omega
  have e2 : (2 * (j : Int)) = ((2 * j : Nat) : Int) := by omega
  have e3 : (2 * (i : Int) + 1) = ((2 * i + 1 : Nat) : Int) := by omega
  show Spec.sumOrZero [(Spec.tile xg yg m n).subX _ (2 * (i : Int) + 1 - 1) (2 * (j : Int)),
      (Spec.tile xg yg m n).subX _ (2 * (i : Int) + 1) (2 * (j : Int))] = _
  rw [e1, e2, e3, sumOrZero_two _ _ (hnz _ _ (by omega) (by omega)) (hnz _ _ (by omega) (by omega))]

theorem C62_dyg_conserved [AddCommMonoid F] [ExactAdd F] [ZeroLaw F] (geod : Geod F) (xg yg : Mat F)
    (m n : Nat) (h : Spec.Ringed xg yg m n)
    (hnz : ∀ a b : Nat, a ≤ 2 * m → b < 2 * n →
      PyFloat.isZero ((Spec.tile xg yg m n).subY geod.inv a b) = false) :
    ∃ (g : Grid F) (DYG : Mat F), tomitgridRing geod xg yg m n = .ok g ∧ g .DYG = .arr DYG ∧
      ∀ i ≤ m, ∑ j ∈ range n, DYG.get i j =
        ∑ b ∈ range (2 * n), (Spec.tile xg yg m n).subY geod.inv (2 * i : Nat) b := by
  obtain ⟨planar, g, e, v⟩ := C23_tomitgrid_entries geod xg yg m n h
  obtain ⟨M, hR, hv⟩ := v .DYG
  refine ⟨g, M, e, hR, fun i hi => ?_⟩
  rw [sum_range_two_mul]
  refine sum_congr rfl fun j hj => ?_
  have hj := mem_range.1 hj
  rw [hv i j (by simp only [Spec.nrows]; omega) hj]
  have e1 : (2 * (j : Int) + 1 - 1) = ((2 * j : Nat) : Int) := by omega
  have e2 : (2 * (i : Int)) = ((2 * i : Nat) : Int) := by omega
  have e3 : (2 * (j : Int) + 1) = ((2 * j + 1 : Nat) : Int) := by omega
  show Spec.sumOrZero [(Spec.tile xg yg m n).subY _ (2 * (i : Int)) (2 * (j : Int) + 1 - 1),
      (Spec.tile xg yg m n).subY _ (2 * (i : Int)) (2 * (j : Int) + 1)] = _
  rw [e1, e2, e3, sumOrZero_two _ _ (hnz _ _ (by omega) (by omega)) (hnz _ _ (by omega) (by omega))]

/-! ### A concrete instance of the hypotheses: integer arithmetic, a 2 x 1 tile -/
section Example

/-- Integers with stand-ins for the transcendental functions (`cart = (1,lon,lat)`). -/
local instance exInt : PyFloat Int where
  zero := 0
  half := 1
  two := 2
  pi := 3
  add := (· + ·)
  sub := (· - ·)
  mul := (· * ·)
  div := (· / ·)
  cos _ := 1
  sin x := x
  arccos x := x
  radians x := x
  sqrt x := x
  isZero x := x == 0
  lt x y := decide (x < y)
  le x y := decide (x ≤ y)
  inf := 1000000
  nan := 0
  four := 4
  c360 := 360
  c1e10 := 10000000000
  tol := 0
  planar := 10000
  mean l := l.headD 0

local instance : ExactAdd Int := ⟨fun _ _ => rfl, rfl⟩
local instance : ZeroLaw Int := ⟨rfl⟩

def exIntGeod : Geod Int := ⟨fun a b c d => (a - c).natAbs + (b - d).natAbs, fun a b _ _ _ _ => (a, b), 1⟩
def exIntX : Mat Int := ⟨7, 5, fun i _ => i⟩
def exIntY : Mat Int := ⟨7, 5, fun _ j => j * j⟩

example : Spec.Ringed exIntX exIntY 2 1 := ⟨rfl, rfl, rfl, rfl⟩

set_option maxRecDepth 20000 in
example : (∀ a b : Nat, a < 2 * 2 → b < 2 * 1 → PyFloat.isZero ((Spec.tile exIntX exIntY 2 1).subA
      (Spec.quad exIntGeod ((Spec.tile exIntX exIntY 2 1).usePlanar exIntGeod.inv)) a b) = false) ∧
    (∀ a b : Nat, a < 2 * 2 → b ≤ 2 * 1 →
      PyFloat.isZero ((Spec.tile exIntX exIntY 2 1).subX exIntGeod.inv a b) = false) ∧
    (∀ a b : Nat, a ≤ 2 * 2 → b < 2 * 1 →
      PyFloat.isZero ((Spec.tile exIntX exIntY 2 1).subY exIntGeod.inv a b) = false) := by
  have e : ∀ {P : Nat → Nat → Prop} {M N : Nat}, (∀ a : Fin M, ∀ b : Fin N, P a b) →
      ∀ a b, a < M → b < N → P a b := fun h a b ha hb => h ⟨a, ha⟩ ⟨b, hb⟩
  refine ⟨e ?_, fun a b ha hb => ?_, fun a b ha hb => ?_⟩
  · decide
  · exact e (M := 4) (N := 3) (P := fun a b =>
      PyFloat.isZero ((Spec.tile exIntX exIntY 2 1).subX exIntGeod.inv a b) = false) (by decide)
      a b ha (by omega)
  · exact e (M := 5) (N := 2) (P := fun a b =>
      PyFloat.isZero ((Spec.tile exIntX exIntY 2 1).subY exIntGeod.inv a b) = false) (by decide)
      a b (by omega) hb

end Example
end SG
