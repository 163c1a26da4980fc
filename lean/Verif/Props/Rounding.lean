import Verif.Props.Conservation
import Mathlib.Data.Real.Basic
import Mathlib.Algebra.BigOperators.Ring.Finset
import Mathlib.Algebra.Order.BigOperators.Group.Finset
import Mathlib.Tactic.Linarith
import Mathlib.Tactic.Positivity
import Mathlib.Tactic.Ring
/-! # C117: conservation of area and length with rounding

C25 and C62 are about exact arithmetic. Here additions are rounded. -/
set_option linter.unusedSectionVars false

namespace SG
open Finset
variable {F : Type} [PyFloat F]

/-- What is assumed of rounded addition; IEEE-754 doubles satisfy it with `u = 2⁻⁵³` (also where sums are subnormal): if a sum is finite so are the
summands, and it is the exact sum up to the relative error `u`.  `fin x` says that `x` is finite, `val x` is the number it stands for. -/
structure RoundedAdd (F : Type) [Arith F] (u : ℝ) where
  fin : F → Prop
  val : F → ℝ
  add : ∀ x y : F, fin (x +ₚ y) → fin x ∧ fin y ∧ |val (x +ₚ y) - (val x + val y)| ≤ u * |val x + val y|

variable {u : ℝ}

/-- The value of a sum of two nonnegative numbers. -/
theorem RoundedAdd.bounds (R : RoundedAdd F u) {x y : F} (h : R.fin (x +ₚ y)) (hs : 0 ≤ R.val x + R.val y) :
    (1 - u) * (R.val x + R.val y) ≤ R.val (x +ₚ y) ∧ R.val (x +ₚ y) ≤ (1 + u) * (R.val x + R.val y) := by
  obtain ⟨-, -, e⟩ := R.add x y h
  rw [abs_of_nonneg hs] at e
  have := abs_le.1 e
  constructor <;> nlinarith [this.1, this.2]

/-- The sum of four numbers as the code computes it. -/
theorem RoundedAdd.four (R : RoundedAdd F u) (h0 : 0 ≤ u) (h1 : u ≤ 1) {x y z w : F} (h : R.fin (x +ₚ y +ₚ z +ₚ w))
    (hx : 0 ≤ R.val x) (hy : 0 ≤ R.val y) (hz : 0 ≤ R.val z) (hw : 0 ≤ R.val w) :
    (1 - u) ^ 3 * (R.val x + R.val y + R.val z + R.val w) ≤ R.val (x +ₚ y +ₚ z +ₚ w) ∧
    R.val (x +ₚ y +ₚ z +ₚ w) ≤ (1 + u) ^ 3 * (R.val x + R.val y + R.val z + R.val w) := by
  obtain ⟨f3, -, -⟩ := R.add _ _ h
  obtain ⟨f2, -, -⟩ := R.add _ _ f3
  obtain ⟨a1, a2⟩ := R.bounds f2 (by linarith)
  have p : 0 ≤ 1 - u := by linarith
  have q : 1 - u ≤ 1 := by linarith
  have n2 : 0 ≤ R.val (x +ₚ y) := le_trans (mul_nonneg p (by linarith)) a1
  obtain ⟨b1, b2⟩ := R.bounds f3 (by linarith)
  have n3 : 0 ≤ R.val (x +ₚ y +ₚ z) := le_trans (mul_nonneg p (by linarith)) b1
  obtain ⟨c1, c2⟩ := R.bounds h (by linarith)
  have pp : (1 - u) * (1 - u) ≤ 1 := by nlinarith
  constructor
  · calc (1 - u) ^ 3 * (R.val x + R.val y + R.val z + R.val w)
        = (1 - u) * ((1 - u) * ((1 - u) * (R.val x + R.val y)) + (1 - u) * ((1 - u) * R.val z) + (1 - u) * (1 - u) * R.val w) := by ring
      _ ≤ (1 - u) * ((1 - u) * (R.val (x +ₚ y)) + (1 - u) * (1 * R.val z) + 1 * R.val w) := by gcongr
      _ = (1 - u) * ((1 - u) * (R.val (x +ₚ y) + R.val z) + R.val w) := by ring
      _ ≤ (1 - u) * (R.val (x +ₚ y +ₚ z) + R.val w) := by gcongr
      _ ≤ _ := c1
  · have r : 1 ≤ 1 + u := by linarith
    have rr : 1 ≤ (1 + u) * (1 + u) := by nlinarith
    calc R.val (x +ₚ y +ₚ z +ₚ w) ≤ (1 + u) * (R.val (x +ₚ y +ₚ z) + R.val w) := c2
      _ ≤ (1 + u) * ((1 + u) * (R.val (x +ₚ y) + R.val z) + R.val w) := by gcongr
      _ = (1 + u) * ((1 + u) * (R.val (x +ₚ y)) + (1 + u) * (1 * R.val z) + 1 * R.val w) := by ring
      _ ≤ (1 + u) * ((1 + u) * ((1 + u) * (R.val x + R.val y)) + (1 + u) * ((1 + u) * R.val z) + (1 + u) * (1 + u) * R.val w) := by gcongr
      _ = _ := by ring

theorem sum_bounds {ι : Type} (s : Finset ι) (a b : ι → ℝ) (p q : ℝ) (h : ∀ i ∈ s, p * a i ≤ b i ∧ b i ≤ q * a i) :
    p * ∑ i ∈ s, a i ≤ ∑ i ∈ s, b i ∧ ∑ i ∈ s, b i ≤ q * ∑ i ∈ s, a i := by
  rw [mul_sum, mul_sum]
  exact ⟨sum_le_sum fun i hi => (h i hi).1, sum_le_sum fun i hi => (h i hi).2⟩

/-- **C117** (areas): with rounded additions the tracer cell areas, if finite, add up to the quarter cell areas, each counted once, up to the factors
`(1 - u)³` and `(1 + u)³`; so does every single tracer cell area to its four quarters. -/
theorem C117_area_conserved_rounded (R : RoundedAdd F u) (h0 : 0 ≤ u) (h1 : u ≤ 1) [ZeroLaw F] (geod : Geod F) (xg yg : Mat F) (m n : Nat)
    (h : Spec.Ringed xg yg m n)
    (hnz : ∀ a b : Nat, a < 2 * m → b < 2 * n → PyFloat.isZero ((Spec.tile xg yg m n).subA
      (Spec.quad geod ((Spec.tile xg yg m n).usePlanar geod.inv)) a b) = false)
    (hnn : ∀ a b : Nat, a < 2 * m → b < 2 * n → 0 ≤ R.val ((Spec.tile xg yg m n).subA
      (Spec.quad geod ((Spec.tile xg yg m n).usePlanar geod.inv)) a b)) :
    ∃ (g : Grid F) (RAC : Mat F), tomitgridRing geod xg yg m n = .ok g ∧ g .RAC = .arr RAC ∧
      ((∀ i j, i < m → j < n → R.fin (RAC.get i j)) →
        let q := fun a b : Nat => R.val ((Spec.tile xg yg m n).subA (Spec.quad geod ((Spec.tile xg yg m n).usePlanar geod.inv)) a b)
        let S := ∑ a ∈ range (2 * m), ∑ b ∈ range (2 * n), q a b
        let T := ∑ i ∈ range m, ∑ j ∈ range n, R.val (RAC.get i j)
        (1 - u) ^ 3 * S ≤ T ∧ T ≤ (1 + u) ^ 3 * S ∧
        ∀ i < m, ∀ j < n,
          let s := q (2 * i) (2 * j) + q (2 * i + 1) (2 * j) + q (2 * i + 1) (2 * j + 1) + q (2 * i) (2 * j + 1)
          (1 - u) ^ 3 * s ≤ R.val (RAC.get i j) ∧ R.val (RAC.get i j) ≤ (1 + u) ^ 3 * s) := by
  obtain ⟨g, e, v⟩ := C61_area_formula geod xg yg m n h
  obtain ⟨RAC, hR, hv⟩ := v .RAC rfl
  refine ⟨g, RAC, e, hR, fun hf => ?_⟩
  intro q S T
  have cell : ∀ i < m, ∀ j < n,
      (1 - u) ^ 3 * (q (2 * i) (2 * j) + q (2 * i + 1) (2 * j) + q (2 * i + 1) (2 * j + 1) + q (2 * i) (2 * j + 1)) ≤ R.val (RAC.get i j) ∧
      R.val (RAC.get i j) ≤ (1 + u) ^ 3 * (q (2 * i) (2 * j) + q (2 * i + 1) (2 * j) + q (2 * i + 1) (2 * j + 1) + q (2 * i) (2 * j + 1)) := by
    intro i hi j hj
    have e1 : (2 * (i : Int) + 1 - 1) = ((2 * i : Nat) : Int) := by omega
    have e2 : (2 * (j : Int) + 1 - 1) = ((2 * j : Nat) : Int) := by omega
    have e3 : (2 * (i : Int) + 1) = ((2 * i + 1 : Nat) : Int) := by omega
    have e4 : (2 * (j : Int) + 1) = ((2 * j + 1 : Nat) : Int) := by omega
    have hval := hv i j hi hj
    change RAC.get i j = Spec.sumOrZero [(Spec.tile xg yg m n).subA _ (2 * (i : Int) + 1 - 1) (2 * (j : Int) + 1 - 1),
      (Spec.tile xg yg m n).subA _ (2 * (i : Int) + 1) (2 * (j : Int) + 1 - 1),
      (Spec.tile xg yg m n).subA _ (2 * (i : Int) + 1) (2 * (j : Int) + 1),
      (Spec.tile xg yg m n).subA _ (2 * (i : Int) + 1 - 1) (2 * (j : Int) + 1)] at hval
    rw [e1, e2, e3, e4] at hval
    unfold Spec.sumOrZero at hval
    rw [if_neg (by
      simp only [List.any_cons, List.any_nil, hnz (2 * i) (2 * j) (by omega) (by omega), hnz (2 * i + 1) (2 * j) (by omega) (by omega),
        hnz (2 * i + 1) (2 * j + 1) (by omega) (by omega), hnz (2 * i) (2 * j + 1) (by omega) (by omega)]
      decide)] at hval
    simp only [List.foldl_cons, List.foldl_nil] at hval
    have hfin := hf i j hi hj
    rw [hval] at hfin ⊢
    exact R.four h0 h1 hfin (hnn _ _ (by omega) (by omega)) (hnn _ _ (by omega) (by omega)) (hnn _ _ (by omega) (by omega))
      (hnn _ _ (by omega) (by omega))
  have hS : S = ∑ i ∈ range m, ∑ j ∈ range n,
      (q (2 * i) (2 * j) + q (2 * i + 1) (2 * j) + q (2 * i + 1) (2 * j + 1) + q (2 * i) (2 * j + 1)) := by
    show ∑ a ∈ range (2 * m), ∑ b ∈ range (2 * n), q a b = _
    rw [sum_range_two_mul]
    refine sum_congr rfl fun i _ => ?_
    rw [sum_range_two_mul, sum_range_two_mul, ← sum_add_distrib]
    exact sum_congr rfl fun j _ => by ring
  have hT : (1 - u) ^ 3 * S ≤ T ∧ T ≤ (1 + u) ^ 3 * S := by
    rw [hS]
    exact sum_bounds _ _ _ _ _ fun i hi => sum_bounds _ _ _ _ _ fun j hj => cell i (mem_range.1 hi) j (mem_range.1 hj)
  exact ⟨hT.1, hT.2, cell⟩

/-- **C117** (lengths): with rounded additions the `DXG` entries along a grid line, if finite, add up to the lengths of its half-edges up to the
factors `1 - u` and `1 + u`; likewise `DYG`. -/
theorem C117_length_conserved_rounded (R : RoundedAdd F u) [ZeroLaw F] (geod : Geod F) (xg yg : Mat F) (m n : Nat) (h : Spec.Ringed xg yg m n)
    (hx : ∀ a b : Nat, a < 2 * m → b ≤ 2 * n → PyFloat.isZero ((Spec.tile xg yg m n).subX geod.inv a b) = false ∧
      0 ≤ R.val ((Spec.tile xg yg m n).subX geod.inv a b))
    (hy : ∀ a b : Nat, a ≤ 2 * m → b < 2 * n → PyFloat.isZero ((Spec.tile xg yg m n).subY geod.inv a b) = false ∧
      0 ≤ R.val ((Spec.tile xg yg m n).subY geod.inv a b)) :
    ∃ (g : Grid F) (DXG DYG : Mat F), tomitgridRing geod xg yg m n = .ok g ∧ g .DXG = .arr DXG ∧ g .DYG = .arr DYG ∧
      (∀ j ≤ n, (∀ i < m, R.fin (DXG.get i j)) →
        let S := ∑ a ∈ range (2 * m), R.val ((Spec.tile xg yg m n).subX geod.inv a (2 * j : Nat))
        (1 - u) * S ≤ ∑ i ∈ range m, R.val (DXG.get i j) ∧ ∑ i ∈ range m, R.val (DXG.get i j) ≤ (1 + u) * S) ∧
      (∀ i ≤ m, (∀ j < n, R.fin (DYG.get i j)) →
        let S := ∑ b ∈ range (2 * n), R.val ((Spec.tile xg yg m n).subY geod.inv (2 * i : Nat) b)
        (1 - u) * S ≤ ∑ j ∈ range n, R.val (DYG.get i j) ∧ ∑ j ∈ range n, R.val (DYG.get i j) ≤ (1 + u) * S) := by
  obtain ⟨planar, g, e, v⟩ := C23_tomitgrid_entries geod xg yg m n h
  obtain ⟨X, hX, vX⟩ := v .DXG
  obtain ⟨Y, hY, vY⟩ := v .DYG
  refine ⟨g, X, Y, e, hX, hY, fun j hj hf => ?_, fun i hi hf => ?_⟩
  · intro S
    have hS : S = ∑ i ∈ range m, (R.val ((Spec.tile xg yg m n).subX geod.inv (2 * i : Nat) (2 * j : Nat)) +
        R.val ((Spec.tile xg yg m n).subX geod.inv (2 * i + 1 : Nat) (2 * j : Nat))) := sum_range_two_mul _ m
    rw [hS]
    refine sum_bounds _ _ _ _ _ fun i hi => ?_
    have hi := mem_range.1 hi
    have e1 : (2 * (i : Int) + 1 - 1) = ((2 * i : Nat) : Int) := by omega
    have e2 : (2 * (j : Int)) = ((2 * j : Nat) : Int) := by omega
    have e3 : (2 * (i : Int) + 1) = ((2 * i + 1 : Nat) : Int) := by omega
    have hval := vX i j hi (by simp only [Spec.ncols]; omega)
    change X.get i j = Spec.sumOrZero [(Spec.tile xg yg m n).subX _ (2 * (i : Int) + 1 - 1) (2 * (j : Int)),
      (Spec.tile xg yg m n).subX _ (2 * (i : Int) + 1) (2 * (j : Int))] at hval
    rw [e1, e2, e3] at hval
    have k1 := hx (2 * i) (2 * j) (by omega) (by omega)
    have k2 := hx (2 * i + 1) (2 * j) (by omega) (by omega)
    unfold Spec.sumOrZero at hval
    rw [if_neg (by simp only [List.any_cons, List.any_nil, k1.1, k2.1]; decide)] at hval
    simp only [List.foldl_cons, List.foldl_nil] at hval
    have hfin := hf i hi
    rw [hval] at hfin ⊢
    exact R.bounds hfin (add_nonneg k1.2 k2.2)
  · intro S
    have hS : S = ∑ j ∈ range n, (R.val ((Spec.tile xg yg m n).subY geod.inv (2 * i : Nat) (2 * j : Nat)) +
        R.val ((Spec.tile xg yg m n).subY geod.inv (2 * i : Nat) (2 * j + 1 : Nat))) := sum_range_two_mul _ n
    rw [hS]
    refine sum_bounds _ _ _ _ _ fun j hj => ?_
    have hj := mem_range.1 hj
    have e1 : (2 * (j : Int) + 1 - 1) = ((2 * j : Nat) : Int) := by omega
    have e2 : (2 * (i : Int)) = ((2 * i : Nat) : Int) := by omega
    have e3 : (2 * (j : Int) + 1) = ((2 * j + 1 : Nat) : Int) := by omega
    have hval := vY i j (by simp only [Spec.nrows]; omega) hj
    change Y.get i j = Spec.sumOrZero [(Spec.tile xg yg m n).subY _ (2 * (i : Int)) (2 * (j : Int) + 1 - 1),
      (Spec.tile xg yg m n).subY _ (2 * (i : Int)) (2 * (j : Int) + 1)] at hval
    rw [e1, e2, e3] at hval
    have k1 := hy (2 * i) (2 * j) (by omega) (by omega)
    have k2 := hy (2 * i) (2 * j + 1) (by omega) (by omega)
    unfold Spec.sumOrZero at hval
    rw [if_neg (by simp only [List.any_cons, List.any_nil, k1.1, k2.1]; decide)] at hval
    simp only [List.foldl_cons, List.foldl_nil] at hval
    have hfin := hf j hj
    rw [hval] at hfin ⊢
    exact R.bounds hfin (add_nonneg k1.2 k2.2)

/-! ### A concrete instance: integers, sums beyond 16 rounded to an even number -/
section Example

/-- Integers with rounded addition and stand-ins for the transcendental functions. -/
local instance exRnd : PyFloat Int where
  zero := 0
  half := 1
  two := 2
  pi := 3
  add x y := if (x + y).natAbs ≤ 16 then x + y else x + y - (x + y) % 2
  sub := (· - ·)
  mul := (· * ·)
  div := (· / ·)
  cos _ := 1
  sin x := x
  arccos x := x
  radians x := x
  sqrt x := x
  isZero x := x == 0
  lt x y := decide (x < y)
  le x y := decide (x ≤ y)
  inf := 1000000
  nan := 0
  four := 4
  c360 := 360
  c1e10 := 10000000000
  tol := 0
  planar := 10000
  mean l := l.headD 0

local instance : ZeroLaw Int := ⟨rfl⟩

noncomputable def exRounded : RoundedAdd Int (1 / 16) where
  fin _ := True
  val x := x
  add x y _ := by
    refine ⟨trivial, trivial, ?_⟩
    show |(((if (x + y).natAbs ≤ 16 then x + y else x + y - (x + y) % 2 : Int)) : ℝ) - ((x : ℝ) + y)| ≤ 1 / 16 * |(x : ℝ) + y|
    rw [← Int.cast_add]
    generalize x + y = s
    split
    · simp
    · rename_i h
      have h1 : (16 : Int) ≤ |s| := by rw [Int.abs_eq_natAbs]; omega
      have h2 : (16 : ℝ) ≤ |(s : ℝ)| := by exact_mod_cast h1
      have h3 : |s - s % 2 - s| ≤ 1 := by
        rw [abs_le]; omega
      have h4 : |((s - s % 2 : Int) : ℝ) - (s : ℝ)| ≤ 1 := by exact_mod_cast h3
      linarith

def exRGeod : Geod Int := ⟨fun a b c d => (a - c).natAbs + (b - d).natAbs, fun a b _ _ _ _ => (a, b), 1⟩
def exRX : Mat Int := ⟨7, 5, fun i _ => i⟩
def exRY : Mat Int := ⟨7, 5, fun i j => (1 + i % 2 : Nat) * j⟩

theorem exR_hyp : (∀ a b : Nat, a < 2 * 2 → b < 2 * 1 → PyFloat.isZero ((Spec.tile exRX exRY 2 1).subA
      (Spec.quad exRGeod ((Spec.tile exRX exRY 2 1).usePlanar exRGeod.inv)) a b) = false) ∧
    (∀ a b : Nat, a < 2 * 2 → b < 2 * 1 → 0 ≤ exRounded.val ((Spec.tile exRX exRY 2 1).subA
      (Spec.quad exRGeod ((Spec.tile exRX exRY 2 1).usePlanar exRGeod.inv)) a b)) := by
  have e : ∀ {P : Nat → Nat → Prop} {M N : Nat}, (∀ a : Fin M, ∀ b : Fin N, P a b) →
      ∀ a b, a < M → b < N → P a b := fun h a b ha hb => h ⟨a, ha⟩ ⟨b, hb⟩
  refine ⟨e (by decide +kernel), e ?_⟩
  intro a b
  refine Int.cast_nonneg (R := ℝ) ?_
  revert a b
  decide +kernel

/-- Each quarter cell has area 9, so that the exact sum is 36 for either cell; the rounded one is 34. -/
example : (tomitgridRing exRGeod exRX exRY 2 1).toOption.bind (fun g => (g.arr .RAC).toOption.map fun M => (M.get 0 0, M.get 1 0)) =
    some (34, 34) := by decide +kernel
example : ∃ (g : Grid Int) (RAC : Mat Int), tomitgridRing exRGeod exRX exRY 2 1 = .ok g ∧ g .RAC = .arr RAC ∧
    ((1 - 1 / 16 : ℝ)) ^ 3 * 72 ≤ ∑ i ∈ range 2, ∑ j ∈ range 1, (RAC.get i j : ℝ) := by
  obtain ⟨g, RAC, h1, h2, h3⟩ := C117_area_conserved_rounded exRounded (by norm_num) (by norm_num) exRGeod exRX exRY 2 1 ⟨rfl, rfl, rfl, rfl⟩
    exR_hyp.1 exR_hyp.2
  refine ⟨g, RAC, h1, h2, ?_⟩
  obtain ⟨a, -⟩ := h3 fun _ _ _ _ => trivial
  have e : ∑ a ∈ range (2 * 2), ∑ b ∈ range (2 * 1), (((Spec.tile exRX exRY 2 1).subA
      (Spec.quad exRGeod ((Spec.tile exRX exRY 2 1).usePlanar exRGeod.inv)) a b : Int) : ℝ) = 72 := by
    have : ∑ a ∈ range (2 * 2), ∑ b ∈ range (2 * 1), ((Spec.tile exRX exRY 2 1).subA
      (Spec.quad exRGeod ((Spec.tile exRX exRY 2 1).usePlanar exRGeod.inv)) a b : Int) = 72 := by decide +kernel
    exact_mod_cast this
  rw [← e]
  exact a

end Example
end SG
