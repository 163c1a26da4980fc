import Verif.Lemmas.SphereArea
import Verif.Props.SphereGrid
import Mathlib.Algebra.BigOperators.Intervals
/-! # C99-C101: areas of spherical cells add up (exact arithmetic) -/

set_option linter.unusedSectionVars false
namespace SG
open Real

/-! ## Specification -/

namespace Spec
/-- `a`, `b`, `c` turn to the left, seen from outside the sphere. -/
def LeftTurn (a b c : V3 ℝ) : Prop := 0 < triple a b c

/-- All in the open hemisphere around `h`. -/
def InHemisphere (h : V3 ℝ) (l : List (V3 ℝ)) : Prop := OnSphere h ∧ ∀ p ∈ l, OnSphere p ∧ 0 < inner3 h p

/-- A convex quadrilateral of the sphere, corners counterclockwise. -/
structure ConvexQuad (A B C D : V3 ℝ) : Prop where
  hemisphere : ∃ h, InHemisphere h [A, B, C, D]
  abc : LeftTurn A B C
  bcd : LeftTurn B C D
  cda : LeftTurn C D A
  dab : LeftTurn D A B

/-- `q` lies on the shortest arc from `p` to `r`, ends excluded. -/
def OnArc (p q r : V3 ℝ) : Prop :=
  OnSphere q ∧ ∃ c d : ℝ, 0 < c ∧ 0 < d ∧ q = ⟨c * p.x + d * r.x, c * p.y + d * r.y, c * p.z + d * r.z⟩
end Spec

/-! ## One cell -/

theorem nonDeg_of_triple {h a b c : V3 ℝ} (ha : Spec.OnSphere a) (hb : Spec.OnSphere b) (hc : Spec.OnSphere c)
    (h1 : 0 < Spec.inner3 h a) (h2 : 0 < Spec.inner3 h b) (h3 : 0 < Spec.inner3 h c) (hd : 0 < Spec.triple a b c) : Spec.NonDeg a b c := by
  have ne : ∀ x : ℝ, -1 < x → x < 1 → x ^ 2 ≠ 1 := by
    intro x l u e
    nlinarith
  refine ⟨ne _ (inner_gt_neg_one ha hb h1 h2) (inner_lt_one_of_det a b c ha hb hc (ne_of_gt hd)),
    ne _ (inner_gt_neg_one hb hc h2 h3) (inner_lt_one_of_det b c a hb hc ha (by rw [triple_rot]; exact ne_of_gt hd)),
    ne _ (inner_gt_neg_one ha hc h1 h3) ?_⟩
  rw [inner3_comm]
  exact inner_lt_one_of_det c a b hc ha hb (by rw [← triple_rot c a b]; exact ne_of_gt hd)

/-- The cell formula as a sum over the sides, if both triangles turn to the left. -/
theorem squadCell_sides {h A B C D : V3 ℝ} (hh : Spec.InHemisphere h [A, B, C, D]) (t1 : Spec.LeftTurn A B C) (t2 : Spec.LeftTurn A C D) :
    squadCell A B C D = 2 * (side h A B + side h B C + side h C D + side h D A) ∧ 0 < squadCell A B C D := by
  obtain ⟨h0, hl⟩ := hh
  obtain ⟨hA, pA⟩ := hl A (by simp)
  obtain ⟨hB, pB⟩ := hl B (by simp)
  obtain ⟨hC, pC⟩ := hl C (by simp)
  obtain ⟨hD, pD⟩ := hl D (by simp)
  rw [C15_sum_of_excesses A B C D hA hB hC hD (nonDeg_of_triple hA hB hC pA pB pC t1) (nonDeg_of_triple hA hC hD pA pC pD t2)]
  constructor
  · rw [excess_sides h A B C h0 hA hB hC pA pB pC t1, excess_sides h A C D h0 hA hC hD pA pC pD t2, side_swap hA hC pA pC]
    ring
  · obtain ⟨e1, q1, -⟩ := excess_arg A B C hA hB hC t1
    obtain ⟨e2, q2, -⟩ := excess_arg A C D hA hC hD t2
    linarith

/-- **C99**: on convex cells the value of `squad_uarea` is positive and does not depend on which corner is listed first, that is, on the diagonal
along which the cell is cut into two triangles. -/
theorem C99_any_diagonal (A B C D : V3 ℝ) (hq : Spec.ConvexQuad A B C D) : 0 < squadCell A B C D ∧ squadCell B C D A = squadCell A B C D := by
  obtain ⟨⟨h, hh⟩, abc, bcd, cda, dab⟩ := hq
  have acd : Spec.LeftTurn A C D := by
    have := triple_rot A C D
    unfold Spec.LeftTurn at *; linarith
  have bda : Spec.LeftTurn B D A := by
    have := triple_rot D A B
    have := triple_rot A B D
    unfold Spec.LeftTurn at *; linarith
  obtain ⟨e, p⟩ := squadCell_sides hh abc acd
  have hh' : Spec.InHemisphere h [B, C, D, A] := by
    refine ⟨hh.1, fun p hp => hh.2 p ?_⟩
    simp only [List.mem_cons, List.not_mem_nil, or_false] at hp ⊢
    tauto
  obtain ⟨e', -⟩ := squadCell_sides hh' bcd bda
  exact ⟨p, by rw [e, e']; ring⟩

theorem onArc_hemi {h p q r : V3 ℝ} (h1 : 0 < Spec.inner3 h p) (h2 : 0 < Spec.inner3 h r) (hq : Spec.OnArc p q r) : 0 < Spec.inner3 h q := by
  obtain ⟨-, c, d, hc, hd, e⟩ := hq
  have : Spec.inner3 h q = c * Spec.inner3 h p + d * Spec.inner3 h r := by rw [e]; unfold Spec.inner3; dsimp only; ring
  rw [this]; positivity

/-- **C100**: cutting a convex cell in two by an arc between two opposite sides, the values of `squad_uarea` for the two parts add up to its value for
the whole. -/
theorem C100_cut (A B C D E F : V3 ℝ) (hq : Spec.ConvexQuad A B C D) (hE : Spec.OnArc A E B) (hF : Spec.OnArc D F C) :
    squadCell A E F D + squadCell E B C F = squadCell A B C D := by
  obtain ⟨⟨h, hh⟩, abc, bcd, cda, dab⟩ := hq
  obtain ⟨h0, hl⟩ := hh
  obtain ⟨hA, pA⟩ := hl A (by simp)
  obtain ⟨hB, pB⟩ := hl B (by simp)
  obtain ⟨hC, pC⟩ := hl C (by simp)
  obtain ⟨hD, pD⟩ := hl D (by simp)
  have pE := onArc_hemi pA pB hE
  have pF := onArc_hemi pD pC hF
  obtain ⟨uE, c, d, hc, hd, eE⟩ := hE
  obtain ⟨uF, c', d', hc', hd', eF⟩ := hF
  have acd : Spec.LeftTurn A C D := by
    have := triple_rot A C D
    unfold Spec.LeftTurn at *; linarith
  have abd : Spec.LeftTurn A B D := by
    have := triple_rot D A B
    unfold Spec.LeftTurn at *; linarith
  unfold Spec.LeftTurn at *
  have t1 : Spec.LeftTurn A E F := by
    have : Spec.triple A E F = d * (c' * Spec.triple A B D + d' * Spec.triple A B C) := by rw [eE, eF]; unfold Spec.triple; dsimp only; ring
    unfold Spec.LeftTurn; rw [this]; positivity
  have t2 : Spec.LeftTurn A F D := by
    have : Spec.triple A F D = d' * Spec.triple A C D := by rw [eF]; unfold Spec.triple; dsimp only; ring
    unfold Spec.LeftTurn; rw [this]; positivity
  have t3 : Spec.LeftTurn E B C := by
    have : Spec.triple E B C = c * Spec.triple A B C := by rw [eE]; unfold Spec.triple; dsimp only; ring
    unfold Spec.LeftTurn; rw [this]; positivity
  have t4 : Spec.LeftTurn E C F := by
    have : Spec.triple E C F = c' * (c * Spec.triple A C D + d * Spec.triple B C D) := by rw [eE, eF]; unfold Spec.triple; dsimp only; ring
    unfold Spec.LeftTurn; rw [this]; positivity
  have H : ∀ P Q R S, P ∈ [A, B, C, D, E, F] → Q ∈ [A, B, C, D, E, F] → R ∈ [A, B, C, D, E, F] → S ∈ [A, B, C, D, E, F] →
      Spec.InHemisphere h [P, Q, R, S] := by
    have all : ∀ p ∈ [A, B, C, D, E, F], Spec.OnSphere p ∧ 0 < Spec.inner3 h p := by
      intro p hp
      simp only [List.mem_cons, List.not_mem_nil, or_false] at hp
      rcases hp with rfl | rfl | rfl | rfl | rfl | rfl
      exacts [⟨hA, pA⟩, ⟨hB, pB⟩, ⟨hC, pC⟩, ⟨hD, pD⟩, ⟨uE, pE⟩, ⟨uF, pF⟩]
    intro P Q R S m1 m2 m3 m4
    refine ⟨h0, fun p hp => all p ?_⟩
    simp only [List.mem_cons, List.not_mem_nil, or_false] at hp
    rcases hp with rfl | rfl | rfl | rfl <;> assumption
  have e1 := (squadCell_sides (H A E F D (by simp) (by simp) (by simp) (by simp)) t1 t2).1
  have e2 := (squadCell_sides (H E B C F (by simp) (by simp) (by simp) (by simp)) t3 t4).1
  have e3 := (squadCell_sides (H A B C D (by simp) (by simp) (by simp) (by simp)) abc acd).1
  have s1 := side_add h A E B h0 hA uE hB pA pE pB c d hc.le hd.le eE
  have s2 := side_add h D F C h0 hD uF hC pD pF pC c' d' hc'.le hd'.le eF
  rw [e1, e2, e3, side_swap uE uF pE pF, side_swap hD uF pD pF, side_swap uF hC pF pC, side_swap hD hC pD pC]
  linarith

/-! ## Arrays of cells -/

/-- A sum over all cells of differences is a sum over the boundary. -/
theorem sum_boundary (m n : Nat) (a b : Nat → Nat → ℝ) :
    ∑ i ∈ Finset.range m, ∑ j ∈ Finset.range n, (a i j + b (i + 1) j - a i (j + 1) - b i j) =
      ∑ i ∈ Finset.range m, (a i 0 - a i n) + ∑ j ∈ Finset.range n, (b m j - b 0 j) := by
  have e : ∀ i j, a i j + b (i + 1) j - a i (j + 1) - b i j = (b (i + 1) j - b i j) - (a i (j + 1) - a i j) := by intros; ring
  simp only [e, Finset.sum_sub_distrib]
  have e1 : ∀ i, ∑ j ∈ Finset.range n, a i (j + 1) - ∑ j ∈ Finset.range n, a i j = a i n - a i 0 := by
    intro i
    rw [← Finset.sum_sub_distrib, Finset.sum_range_sub]
  have e2 : ∑ i ∈ Finset.range m, ∑ j ∈ Finset.range n, b (i + 1) j - ∑ i ∈ Finset.range m, ∑ j ∈ Finset.range n, b i j =
      ∑ j ∈ Finset.range n, b m j - ∑ j ∈ Finset.range n, b 0 j := by
    rw [← Finset.sum_sub_distrib, Finset.sum_range_sub (fun i => ∑ j ∈ Finset.range n, b i j)]
  have e3 : ∑ i ∈ Finset.range m, (∑ j ∈ Finset.range n, a i (j + 1) - ∑ j ∈ Finset.range n, a i j) = ∑ i ∈ Finset.range m, (a i n - a i 0) :=
    Finset.sum_congr rfl fun i _ => e1 i
  rw [Finset.sum_sub_distrib, Finset.sum_sub_distrib] at e3
  linarith

namespace Spec
/-- All points in the open hemisphere around `h`, all cells have two triangles that turn to the left. -/
structure GoodMesh (h : V3 ℝ) (m n : Nat) (P : Nat → Nat → V3 ℝ) : Prop where
  center : OnSphere h
  inside : ∀ i j, i ≤ m → j ≤ n → OnSphere (P i j) ∧ 0 < inner3 h (P i j)
  lower : ∀ i j, i < m → j < n → LeftTurn (P i j) (P (i + 1) j) (P (i + 1) (j + 1))
  upper : ∀ i j, i < m → j < n → LeftTurn (P i j) (P (i + 1) (j + 1)) (P i (j + 1))
end Spec

/-- Total area of a mesh. -/
theorem mesh_sum {h : V3 ℝ} {m n : Nat} {P : Nat → Nat → V3 ℝ} (hg : Spec.GoodMesh h m n P) :
    ∑ i ∈ Finset.range m, ∑ j ∈ Finset.range n, squadCell (P i j) (P (i + 1) j) (P (i + 1) (j + 1)) (P i (j + 1)) =
      2 * (∑ i ∈ Finset.range m, (side h (P i 0) (P (i + 1) 0) - side h (P i n) (P (i + 1) n)) +
        ∑ j ∈ Finset.range n, (side h (P m j) (P m (j + 1)) - side h (P 0 j) (P 0 (j + 1)))) := by
  rw [← sum_boundary m n (fun i j => side h (P i j) (P (i + 1) j)) (fun i j => side h (P i j) (P i (j + 1)))]
  rw [Finset.mul_sum]
  refine Finset.sum_congr rfl fun i hi => ?_
  rw [Finset.mul_sum]
  refine Finset.sum_congr rfl fun j hj => ?_
  rw [Finset.mem_range] at hi hj
  have A := hg.inside i j (by omega) (by omega)
  have B := hg.inside (i + 1) j (by omega) (by omega)
  have C := hg.inside (i + 1) (j + 1) (by omega) (by omega)
  have D := hg.inside i (j + 1) (by omega) (by omega)
  have hh : Spec.InHemisphere h [P i j, P (i + 1) j, P (i + 1) (j + 1), P i (j + 1)] := by
    refine ⟨hg.center, fun p hp => ?_⟩
    simp only [List.mem_cons, List.not_mem_nil, or_false] at hp
    rcases hp with rfl | rfl | rfl | rfl <;> assumption
  rw [(squadCell_sides hh (hg.lower i j hi hj) (hg.upper i j hi hj)).1, side_swap D.1 C.1 D.2 C.2, side_swap A.1 D.1 A.2 D.2]
  ring

/-- **C101**: the sum of the values of `squad_uarea` depends on the points along the boundary of the array only: moving points of the interior
(without folding cells) does not change the total area. -/
theorem C101_boundary_only (h : V3 ℝ) (c c' : Mat (V3 ℝ)) (m n : Nat) (hr : c.rows = m + 1) (hc : c.cols = n + 1) (hr' : c'.rows = m + 1)
    (hc' : c'.cols = n + 1) (hg : Spec.GoodMesh h m n c.get) (hg' : Spec.GoodMesh h m n c'.get)
    (same : ∀ i j, i ≤ m → j ≤ n → (i = 0 ∨ i = m ∨ j = 0 ∨ j = n) → c.get i j = c'.get i j) :
    ∃ u u', squadUarea c = .ok u ∧ squadUarea c' = .ok u' ∧
      ∑ i ∈ Finset.range m, ∑ j ∈ Finset.range n, u.get i j = ∑ i ∈ Finset.range m, ∑ j ∈ Finset.range n, u'.get i j := by
  obtain ⟨u, e, r, s, v⟩ := quadLoop_spec squadCell c
  obtain ⟨u', e', r', s', v'⟩ := quadLoop_spec squadCell c'
  refine ⟨u, u', ?_, ?_, ?_⟩
  · unfold squadUarea; rw [if_neg (by omega), e]
  · unfold squadUarea; rw [if_neg (by omega), e']
  · have q : ∑ i ∈ Finset.range m, ∑ j ∈ Finset.range n, u.get i j =
        ∑ i ∈ Finset.range m, ∑ j ∈ Finset.range n, squadCell (c.get i j) (c.get (i + 1) j) (c.get (i + 1) (j + 1)) (c.get i (j + 1)) := by
      refine Finset.sum_congr rfl fun i hi => Finset.sum_congr rfl fun j hj => ?_
      rw [Finset.mem_range] at hi hj
      exact v i j (by omega) (by omega)
    have q' : ∑ i ∈ Finset.range m, ∑ j ∈ Finset.range n, u'.get i j =
        ∑ i ∈ Finset.range m, ∑ j ∈ Finset.range n, squadCell (c'.get i j) (c'.get (i + 1) j) (c'.get (i + 1) (j + 1)) (c'.get i (j + 1)) := by
      refine Finset.sum_congr rfl fun i hi => Finset.sum_congr rfl fun j hj => ?_
      rw [Finset.mem_range] at hi hj
      exact v' i j (by omega) (by omega)
    rw [q, q', mesh_sum hg, mesh_sum hg']
    congr 2
    · refine Finset.sum_congr rfl fun i hi => ?_
      rw [Finset.mem_range] at hi
      rw [same i 0 (by omega) (by omega) (by omega), same (i + 1) 0 (by omega) (by omega) (by omega), same i n (by omega) (by omega) (by omega),
        same (i + 1) n (by omega) (by omega) (by omega)]
    · refine Finset.sum_congr rfl fun j hj => ?_
      rw [Finset.mem_range] at hj
      rw [same m j (by omega) (by omega) (by omega), same m (j + 1) (by omega) (by omega) (by omega), same 0 j (by omega) (by omega) (by omega),
        same 0 (j + 1) (by omega) (by omega) (by omega)]

/-! ## A concrete case: points around the north pole -/

/-- The point of the sphere above `(x,y)/(1+x²+y²)`, from the plane (stereographic projection). -/
noncomputable def stereo (x y : ℝ) : V3 ℝ := ⟨2 * x / (1 + x ^ 2 + y ^ 2), 2 * y / (1 + x ^ 2 + y ^ 2), (1 - x ^ 2 - y ^ 2) / (1 + x ^ 2 + y ^ 2)⟩

/-- A convex cell with corners (0,0,1), (3/5,0,4/5), (2/3,2/3,1/3), (0,4/5,3/5): all four sides have different lengths. -/
example : Spec.ConvexQuad ⟨0, 0, 1⟩ ⟨3 / 5, 0, 4 / 5⟩ ⟨2 / 3, 2 / 3, 1 / 3⟩ ⟨0, 4 / 5, 3 / 5⟩ := by
  refine ⟨⟨⟨0, 0, 1⟩, ?_, fun p hp => ?_⟩, ?_, ?_, ?_, ?_⟩
  · norm_num [Spec.OnSphere, Spec.inner3]
  · simp only [List.mem_cons, List.not_mem_nil, or_false] at hp
    rcases hp with rfl | rfl | rfl | rfl <;> norm_num [Spec.OnSphere, Spec.inner3]
  all_goals norm_num [Spec.LeftTurn, Spec.triple]

/-- A point on a side of it. -/
example : Spec.OnArc ⟨0, 0, 1⟩ ⟨5 / 13, 0, 12 / 13⟩ ⟨3 / 5, 0, 4 / 5⟩ := by
  refine ⟨by norm_num [Spec.OnSphere, Spec.inner3], 16 / 39, 25 / 39, by norm_num, by norm_num, ?_⟩
  apply V3.ext' <;> norm_num

/-- Two meshes of 2 by 2 cells around the north pole with the same boundary and a different point in the middle: (0,0,1) and (0,7/25,24/25). -/
example : ∃ P P' : Nat → Nat → V3 ℝ, Spec.GoodMesh ⟨0, 0, 1⟩ 2 2 P ∧ Spec.GoodMesh ⟨0, 0, 1⟩ 2 2 P' ∧
    (∀ i j, i ≤ 2 → j ≤ 2 → (i = 0 ∨ i = 2 ∨ j = 0 ∨ j = 2) → P i j = P' i j) ∧ P 1 1 ≠ P' 1 1 := by
  refine ⟨fun i j => stereo (((i : ℝ) - 1) / 2) (((j : ℝ) - 1) / 2),
    fun i j => if i = 1 ∧ j = 1 then stereo 0 (1 / 7) else stereo (((i : ℝ) - 1) / 2) (((j : ℝ) - 1) / 2), ?_, ?_, ?_, ?_⟩
  · refine ⟨by norm_num [Spec.OnSphere, Spec.inner3], fun i j hi hj => ?_, fun i j hi hj => ?_, fun i j hi hj => ?_⟩ <;>
      interval_cases i <;> interval_cases j <;> norm_num [Spec.OnSphere, Spec.inner3, Spec.LeftTurn, Spec.triple, stereo]
  · refine ⟨by norm_num [Spec.OnSphere, Spec.inner3], fun i j hi hj => ?_, fun i j hi hj => ?_, fun i j hi hj => ?_⟩ <;>
      interval_cases i <;> interval_cases j <;> norm_num [Spec.OnSphere, Spec.inner3, Spec.LeftTurn, Spec.triple, stereo]
  · intro i j hi hj h
    dsimp only
    rw [if_neg (by omega)]
  · intro h
    have := congrArg V3.y h
    norm_num [stereo] at this

end SG
