import Verif.Props.Cartesian
import Verif.Props.MkGrid
import Mathlib.Analysis.SpecialFunctions.Complex.Arg
/-! # C79-C81: `mkgrid` on the sphere (exact arithmetic)

The other theorems hold for any `Geod`.  Here the two facts on great circles that users rely on are stated (`Spec.GreatCircles`),
shown to hold for the sphere, and used. -/

set_option linter.unusedSectionVars false
namespace SG
open Real

/-- Exact arithmetic with comparisons.  There is no NaN or infinity among the reals; `mkgrid` and `regrid` do not use them. -/
noncomputable instance realFloat : PyFloat ℝ where
  toArith := realArith
  isZero x := @decide (x = 0) (Classical.dec _)
  lt x y := @decide (x < y) (Classical.dec _)
  le x y := @decide (x ≤ y) (Classical.dec _)
  inf := 0
  nan := 0
  four := 4
  c360 := 360
  c1e10 := 10 ^ 10
  tol := 1 / 10 ^ 6
  planar := 10000
  mean l := l.sum / l.length

theorem isZero_r (x : ℝ) : PyFloat.isZero x = true ↔ x = 0 := by
  show @decide (x = 0) (Classical.dec _) = true ↔ _
  simp
theorem lt_r (x y : ℝ) : PyFloat.lt x y = true ↔ x < y := by
  show @decide (x < y) (Classical.dec _) = true ↔ _
  simp
theorem zero_r : (Arith.zero : ℝ) = 0 := rfl

instance : ZeroLaw ℝ := ⟨(isZero_r _).2 rfl⟩

namespace Spec
/-- Distance of two points given by longitude and latitude. -/
def distance (geod : Geod ℝ) (p q : ℝ × ℝ) : ℝ := geod.inv p.1 p.2 q.1 q.2

/-- The `n + 2` points of the arc from `p` to `q` with the `n` points of `npts` in between. -/
def arcPoint (geod : Geod ℝ) (p q : ℝ × ℝ) (n k : Nat) : ℝ × ℝ :=
  if k = 0 then p else if k = n + 1 then q else geod.npt p.1 p.2 q.1 q.2 n (k - 1)

/-- What users expect of great circles: distances do not change when a longitude is shifted by 360 degrees, and `npts` divides the arc into
parts of equal length. -/
structure GreatCircles (geod : Geod ℝ) : Prop where
  shift_left : ∀ p q : ℝ × ℝ, distance geod (p.1 + 360, p.2) q = distance geod p q
  shift_right : ∀ p q : ℝ × ℝ, distance geod p (q.1 + 360, q.2) = distance geod p q
  equal_parts : ∀ (p q : ℝ × ℝ) (n k : Nat), k ≤ n →
    distance geod (arcPoint geod p q n k) (arcPoint geod p q n (k + 1)) = distance geod p q / (n + 1)
end Spec

/-! ## C79: spacing -/

/-- The points `f 0 = p, f 1, ..., f N = q` stored by `fill` are at equal distances. -/
theorem arc_steps (geod : Geod ℝ) (hg : Spec.GreatCircles geod) (X : Mat ℝ) (N : Nat) (hN : 1 ≤ N) (p q : ℝ × ℝ) (f : Nat → ℝ × ℝ)
    (h0 : f 0 = p) (h1 : f N = q) (hs : ∀ k, k < N - 1 → Spec.IsSub geod X (N - 1) k p q (f (k + 1))) (k : Nat) (hk : k < N) :
    Spec.distance geod (f k) (f (k + 1)) = Spec.distance geod p q / N := by
  -- every point is the arc point up to 360 degrees
  have pt : ∀ k, k ≤ N → f k = Spec.arcPoint geod p q (N - 1) k ∨
      f k = ((Spec.arcPoint geod p q (N - 1) k).1 + 360, (Spec.arcPoint geod p q (N - 1) k).2) := by
    intro k hk
    unfold Spec.arcPoint
    by_cases k0 : k = 0
    · left; rw [if_pos k0, k0, h0]
    by_cases k1 : k = N
    · left; rw [if_neg k0, if_pos (by omega), k1, h1]
    rw [if_neg k0, if_neg (by omega)]
    obtain ⟨⟨ha, hb⟩, hc⟩ := hs (k - 1) (by omega)
    rw [show k - 1 + 1 = k by omega] at ha hb hc
    by_cases hn : Spec.NonNeg X
    · have := ha hn
      split at this
      · right; exact Prod.ext this hc
      · left; exact Prod.ext this hc
    · left; exact Prod.ext (hb hn) hc
  have e := hg.equal_parts p q (N - 1) k (by omega)
  have hc : (((N - 1 : Nat) : ℝ) + 1) = N := by
    have : ((N - 1 + 1 : Nat) : ℝ) = N := by rw [show N - 1 + 1 = N by omega]
    rw [← this]; push_cast; ring
  rw [hc] at e
  rw [← e]
  rcases pt k (by omega) with h | h <;> rcases pt (k + 1) (by omega) with h' | h' <;> rw [h, h']
  · rw [hg.shift_right]
  · rw [hg.shift_left]
  · rw [hg.shift_left, hg.shift_right]

theorem sumOrZero_halves (d : ℝ) (n : Nat) (_hn : 1 ≤ n) (a b : ℝ) (ha : a = d / (2 * n : Nat)) (hb : b = d / (2 * n : Nat)) :
    Spec.sumOrZero [a, b] = d / n := by
  subst ha hb
  have hn' : (n : ℝ) ≠ 0 := by
    have : n ≠ 0 := by omega
    exact_mod_cast this
  unfold Spec.sumOrZero
  by_cases hd : d = 0
  · subst hd
    rw [if_pos (by simp [isZero_r]), zero_r]; simp
  · have hne : d / ((2 * n : Nat) : ℝ) ≠ 0 := div_ne_zero hd (by push_cast; positivity)
    rw [if_neg (by simp [isZero_r, hd]; omega)]
    show d / ((2 * n : Nat) : ℝ) + d / ((2 * n : Nat) : ℝ) = d / n
    push_cast
    field_simp
    ring

/-- What `mkgrid` stores, as a function of half-cell indices. -/
theorem mkgrid_points {F : Type} [PyFloat F] [ZeroLaw F] (geod : Geod F) (lon1 lat1 lon2 lat2 : F) (m n : Nat) (hm : 1 ≤ m) (hn : 1 ≤ n) :
    ∃ (P : Nat → Nat → F × F) (g : Grid F) (planar : Bool) (X : Mat F),
      mkgrid geod lon1 lat1 lon2 lat2 (m : Int) (n : Int) = .ok (g, (m : Int), (n : Int)) ∧
      P 0 0 = (lon1, lat2) ∧ P (2 * m) 0 = (lon2, lat2) ∧ P 0 (2 * n) = (lon1, lat1) ∧ P (2 * m) (2 * n) = (lon2, lat1) ∧
      (∀ k, k < 2 * m - 1 → Spec.IsSub geod X (2 * m - 1) k (P 0 0) (P (2 * m) 0) (P (k + 1) 0)) ∧
      (∀ k, k < 2 * m - 1 → Spec.IsSub geod X (2 * m - 1) k (P 0 (2 * n)) (P (2 * m) (2 * n)) (P (k + 1) (2 * n))) ∧
      (∀ a k, a ≤ 2 * m → k < 2 * n - 1 → Spec.IsSub geod X (2 * n - 1) k (P a 0) (P a (2 * n)) (P a (k + 1))) ∧
      (Spec.NonNeg X ↔ PyFloat.lt lon1 Arith.zero = false ∧ PyFloat.lt lon2 (Arith.zero : F) = false ∧
        PyFloat.lt (Arith.zero : F) Arith.zero = false) ∧
      (∀ f, ∃ M, g f = .arr M ∧ ∀ i j, i < Spec.nrows f m → j < Spec.ncols f n →
        M.get i j = (⟨m, n, fun a b => P a.toNat b.toNat⟩ : Spec.Tile F).entry geod.inv (Spec.quad geod planar) f i j) ∧
      planar = (⟨m, n, fun a b => P a.toNat b.toNat⟩ : Spec.Tile F).usePlanar geod.inv := by
  obtain ⟨s, g, e, hr, hg, eq⟩ := mkgrid_ok geod lon1 lat1 lon2 lat2 m n hm hn
  have hw := mk_window lon1 lat1 lon2 lat2 m n hm hn
  obtain ⟨s', e', -, -, hnode⟩ := C17_fill_preserves geod _ _ _ _ _ _ _ _ hw
  rw [e] at e'; cases e'
  obtain ⟨s', e', hx, hy⟩ := C18_fill_subdivides geod _ _ _ _ _ _ _ _ hw
  rw [e] at e'; cases e'
  obtain ⟨g', hg', hv⟩ := tomitgrid_spec geod s.1 s.2 m n hr.1 hr.2 hr.3 hr.4
  change tomitgridRing geod s.1 s.2 m n = _ at hg'
  rw [hg] at hg'; cases hg'
  have hm2 : ¬ 2 * m = 0 := by omega
  have hn2 : ¬ 2 * n = 0 := by omega
  have n00 := hnode 0 0
  have n01 := hnode 0 1
  have n10 := hnode 1 0
  have n11 := hnode 1 1
  simp only [Nat.zero_mul, Nat.one_mul, Nat.add_zero] at n00 n01 n10 n11
  have c00 : Spec.at s 1 1 = (lon1, lat2) := by
    rw [n00]
    simp only [Spec.at, mkX, mkY, Mat.set, Nat.add_eq_left, Nat.left_eq_add, hm2, hn2, Mat.full, and_self, and_true, true_and, and_false, false_and, if_true, if_false]
  have c01 : Spec.at s 1 (1 + 2 * n) = (lon1, lat1) := by
    rw [n01]
    simp only [Spec.at, mkX, mkY, Mat.set, Nat.add_eq_left, Nat.left_eq_add, hm2, hn2, Mat.full, and_self, and_true, true_and, and_false, false_and, if_true, if_false]
  have c10 : Spec.at s (1 + 2 * m) 1 = (lon2, lat2) := by
    rw [n10]
    simp only [Spec.at, mkX, mkY, Mat.set, Nat.add_eq_left, Nat.left_eq_add, hm2, hn2, Mat.full, and_self, and_true, true_and, and_false, false_and, if_true, if_false]
  have c11 : Spec.at s (1 + 2 * m) (1 + 2 * n) = (lon2, lat1) := by
    rw [n11]
    simp only [Spec.at, mkX, mkY, Mat.set, Nat.add_eq_left, Nat.left_eq_add, hm2, hn2, Mat.full, and_self, and_true, true_and, and_false, false_and, if_true, if_false]
  -- only points with non-negative indices are used
  have pos : ∀ a b : Int, 0 ≤ a → 0 ≤ b → (Spec.tile s.1 s.2 m n).P a b = Spec.at s (1 + a.toNat) (1 + b.toNat) := by
    intro a b ha hb
    show (s.1.get (a + 1).toNat (b + 1).toNat, s.2.get (a + 1).toNat (b + 1).toNat) = _
    rw [show (a + 1).toNat = 1 + a.toNat by omega, show (b + 1).toNat = 1 + b.toNat by omega]
    rfl
  have tm : (Spec.tile s.1 s.2 m n).m = m := rfl
  have tn : (Spec.tile s.1 s.2 m n).n = n := rfl
  have sx : ∀ a b : Int, (Spec.tile s.1 s.2 m n).subX geod.inv a b =
      (⟨m, n, fun a b => Spec.at s (1 + a.toNat) (1 + b.toNat)⟩ : Spec.Tile F).subX geod.inv a b := by
    intro a b
    unfold Spec.Tile.subX
    rw [tm, tn]
    by_cases hh : 0 ≤ a ∧ a < 2 * (m : Int) ∧ 0 ≤ b ∧ b ≤ 2 * (n : Int)
    · rw [if_pos hh, if_pos hh, pos a b (by omega) (by omega), pos (a + 1) b (by omega) (by omega)]
    · rw [if_neg hh, if_neg hh]
  have sy : ∀ a b : Int, (Spec.tile s.1 s.2 m n).subY geod.inv a b =
      (⟨m, n, fun a b => Spec.at s (1 + a.toNat) (1 + b.toNat)⟩ : Spec.Tile F).subY geod.inv a b := by
    intro a b
    unfold Spec.Tile.subY
    rw [tm, tn]
    by_cases hh : 0 ≤ a ∧ a ≤ 2 * (m : Int) ∧ 0 ≤ b ∧ b < 2 * (n : Int)
    · rw [if_pos hh, if_pos hh, pos a b (by omega) (by omega), pos a (b + 1) (by omega) (by omega)]
    · rw [if_neg hh, if_neg hh]
  refine ⟨fun a b => Spec.at s (1 + a) (1 + b), g, _, mkX lon1 lon2 m n, eq, c00, c10, c01, c11, fun k hk => ?_, fun k hk => ?_,
    fun a k ha hk => ?_, ?_, fun f => ?_, rfl⟩
  · have := hx 0 0 k (by omega) (by omega) hk
    simp only [Nat.zero_mul, Nat.zero_add, Nat.one_mul, Nat.add_zero] at this
    rw [← n00, ← n10] at this
    exact this
  · have := hx 0 1 k (by omega) (by omega) hk
    simp only [Nat.zero_mul, Nat.zero_add, Nat.one_mul, Nat.add_zero] at this
    rw [← n01, ← n11] at this
    exact this
  · have := hy (1 + a) 0 k (by omega) (by omega) (by omega) hk
    simp only [Nat.zero_mul, Nat.zero_add, Nat.one_mul, Nat.add_zero] at this
    exact this
  · unfold Spec.NonNeg
    constructor
    · intro h
      refine ⟨?_, ?_, ?_⟩
      · have := h 1 1 (by show 1 < 2 * m + 3; omega) (by show 1 < 2 * n + 3; omega)
        simpa only [mkX, Mat.set, Nat.add_eq_left, Nat.left_eq_add, hm2, hn2, Mat.full, and_self, and_true, true_and, and_false, false_and, if_true, if_false] using this
      · have := h (1 + 2 * m) 1 (by show 1 + 2 * m < 2 * m + 3; omega) (by show 1 < 2 * n + 3; omega)
        simpa only [mkX, Mat.set, Nat.add_eq_left, Nat.left_eq_add, hm2, hn2, Mat.full, and_self, and_true, true_and, and_false, false_and, if_true, if_false] using this
      · have := h 0 0 (by show 0 < 2 * m + 3; omega) (by show 0 < 2 * n + 3; omega)
        have z1 : ¬ (0 = 1 + 2 * m) := by omega
        simpa only [mkX, Mat.set, z1, Nat.zero_ne_one, Mat.full, and_self, and_true, true_and, and_false, false_and, if_true, if_false] using this
    · rintro ⟨h1, h2, h3⟩ r c - -
      unfold mkX Mat.set Mat.full
      dsimp only
      split
      · exact h2
      split
      · exact h2
      split
      · exact h1
      split
      · exact h1
      · exact h3
  · have eqp : (⟨m, n, fun a b => Spec.at s (1 + a.toNat) (1 + b.toNat)⟩ : Spec.Tile F).usePlanar geod.inv =
        (tileOf s.1 s.2 m n).usePlanar geod.inv := by
      show _ = (Spec.tile s.1 s.2 m n).usePlanar geod.inv
      unfold Spec.Tile.usePlanar Spec.Tile.xLengths Spec.Tile.yLengths
      rw [tm, tn]
      simp only [sx, sy]
    rw [eqp]
    obtain ⟨M, hM, v1, v2, v⟩ := hv f
    refine ⟨M, hM, fun i j hi hj => ?_⟩
    rw [v i j (by omega) (by omega)]
    generalize (tileOf s.1 s.2 m n).usePlanar geod.inv = planar
    show (Spec.tile s.1 s.2 m n).entry geod.inv (Spec.quad geod planar) f i j = _
    have sa : ∀ a b : Int, (Spec.tile s.1 s.2 m n).subA (Spec.quad geod planar) a b =
        (⟨m, n, fun a b => Spec.at s (1 + a.toNat) (1 + b.toNat)⟩ : Spec.Tile F).subA (Spec.quad geod planar) a b := by
      intro a b
      unfold Spec.Tile.subA
      rw [tm, tn]
      by_cases hh : 0 ≤ a ∧ a < 2 * (m : Int) ∧ 0 ≤ b ∧ b < 2 * (n : Int)
      · rw [if_pos hh, if_pos hh, pos a b (by omega) (by omega), pos (a + 1) b (by omega) (by omega),
          pos (a + 1) (b + 1) (by omega) (by omega), pos a (b + 1) (by omega) (by omega)]
      · rw [if_neg hh, if_neg hh]
    have ha : 0 ≤ Spec.halfI f i := by unfold Spec.halfI; split <;> omega
    have hb : 0 ≤ Spec.halfJ f j := by unfold Spec.halfJ; split <;> omega
    unfold Spec.Tile.entry
    dsimp only
    rw [pos _ _ ha hb, sx, sx, sy, sy, sa, sa, sa, sa]

/-- **C79**: with great circles as above, in the grid `mkgrid` makes, all cells of a column of cell corners have the same height: the distance
between the two ends of that column divided by the number of cells; and along the southern and the northern side all cells have the
same width: the distance of the two corner points divided by the number of cells. -/
theorem C79_equal_spacing (geod : Geod ℝ) (hg : Spec.GreatCircles geod) (lon1 lat1 lon2 lat2 : ℝ) (m n : Nat) (hm : 1 ≤ m) (hn : 1 ≤ n) :
    ∃ g X Y DX DY, mkgrid geod lon1 lat1 lon2 lat2 (m : Int) (n : Int) = .ok (g, (m : Int), (n : Int)) ∧
      g .XG = .arr X ∧ g .YG = .arr Y ∧ g .DXG = .arr DX ∧ g .DYG = .arr DY ∧
      (∀ i j, i ≤ m → j < n →
        DY.get i j = Spec.distance geod (X.get i 0, Y.get i 0) (X.get i n, Y.get i n) / n) ∧
      (∀ i, i < m → DX.get i 0 = Spec.distance geod (lon1, lat2) (lon2, lat2) / m) ∧
      (∀ i, i < m → DX.get i n = Spec.distance geod (lon1, lat1) (lon2, lat1) / m) := by
  obtain ⟨P, g, planar, W, eq, p00, p10, p01, p11, hS, hN, hC, -, hv, -⟩ := mkgrid_points geod lon1 lat1 lon2 lat2 m n hm hn
  obtain ⟨X, hX, vX⟩ := hv .XG
  obtain ⟨Y, hY, vY⟩ := hv .YG
  obtain ⟨DX, hDX, vDX⟩ := hv .DXG
  obtain ⟨DY, hDY, vDY⟩ := hv .DYG
  refine ⟨g, X, Y, DX, DY, eq, hX, hY, hDX, hDY, fun i j hi hj => ?_, fun i hi => ?_, fun i hi => ?_⟩
  · rw [vDY i j (by simp only [Spec.nrows]; omega) (by simp only [Spec.ncols]; omega)]
    rw [vX i 0 (by simp only [Spec.nrows]; omega) (by simp only [Spec.ncols]; omega), vX i n (by simp only [Spec.nrows]; omega) (by simp only [Spec.ncols]; omega),
      vY i 0 (by simp only [Spec.nrows]; omega) (by simp only [Spec.ncols]; omega), vY i n (by simp only [Spec.nrows]; omega) (by simp only [Spec.ncols]; omega)]
    have st := arc_steps geod hg W (2 * n) (by omega) (P (2 * i) 0) (P (2 * i) (2 * n)) (fun k => P (2 * i) k) rfl rfl
      (fun k hk => hC (2 * i) k (by omega) hk)
    have e1 := st (2 * j) (by omega)
    have e2 := st (2 * j + 1) (by omega)
    show Spec.sumOrZero [_, _] = Spec.distance geod (P (2 * (i : Int)).toNat (2 * ((0 : Nat) : Int)).toNat)
      (P (2 * (i : Int)).toNat (2 * (n : Int)).toNat) / n
    rw [show (2 * (i : Int)).toNat = 2 * i by omega, show (2 * ((0 : Nat) : Int)).toNat = 0 by omega,
      show (2 * (n : Int)).toNat = 2 * n by omega]
    apply sumOrZero_halves _ n hn
    · rw [← e1]
      show Spec.Tile.subY _ _ (2 * (i : Int)) (2 * (j : Int) + 1 - 1) = _
      unfold Spec.Tile.subY
      dsimp only
      rw [if_pos (by omega)]
      rw [show (2 * (i : Int)).toNat = 2 * i by omega, show (2 * (j : Int) + 1 - 1).toNat = 2 * j by omega,
        show (2 * (j : Int) + 1 - 1 + 1).toNat = 2 * j + 1 by omega]
      rfl
    · rw [← e2]
      show Spec.Tile.subY _ _ (2 * (i : Int)) (2 * (j : Int) + 1) = _
      unfold Spec.Tile.subY
      dsimp only
      rw [if_pos (by omega)]
      rw [show (2 * (i : Int)).toNat = 2 * i by omega, show (2 * (j : Int) + 1).toNat = 2 * j + 1 by omega,
        show (2 * (j : Int) + 1 + 1).toNat = 2 * j + 1 + 1 by omega]
      rfl
  · rw [vDX i 0 (by simp only [Spec.nrows]; omega) (by simp only [Spec.ncols]; omega)]
    have st := arc_steps geod hg W (2 * m) (by omega) (P 0 0) (P (2 * m) 0) (fun k => P k 0) rfl rfl hS
    have e1 := st (2 * i) (by omega)
    have e2 := st (2 * i + 1) (by omega)
    rw [← p00, ← p10]
    show Spec.sumOrZero [_, _] = _
    apply sumOrZero_halves _ m hm
    · rw [← e1]
      show Spec.Tile.subX _ _ (2 * (i : Int) + 1 - 1) (2 * ((0 : Nat) : Int)) = _
      unfold Spec.Tile.subX
      dsimp only
      rw [if_pos (by omega)]
      rw [show (2 * (i : Int) + 1 - 1).toNat = 2 * i by omega, show (2 * (i : Int) + 1 - 1 + 1).toNat = 2 * i + 1 by omega]
      rfl
    · rw [← e2]
      show Spec.Tile.subX _ _ (2 * (i : Int) + 1) (2 * ((0 : Nat) : Int)) = _
      unfold Spec.Tile.subX
      dsimp only
      rw [if_pos (by omega)]
      rw [show (2 * (i : Int) + 1).toNat = 2 * i + 1 by omega, show (2 * (i : Int) + 1 + 1).toNat = 2 * i + 1 + 1 by omega]
      rfl
  · rw [vDX i n (by simp only [Spec.nrows]; omega) (by simp only [Spec.ncols]; omega)]
    have st := arc_steps geod hg W (2 * m) (by omega) (P 0 (2 * n)) (P (2 * m) (2 * n)) (fun k => P k (2 * n)) rfl rfl hN
    have e1 := st (2 * i) (by omega)
    have e2 := st (2 * i + 1) (by omega)
    rw [← p01, ← p11]
    show Spec.sumOrZero [_, _] = _
    apply sumOrZero_halves _ m hm
    · rw [← e1]
      show Spec.Tile.subX _ _ (2 * (i : Int) + 1 - 1) (2 * (n : Int)) = _
      unfold Spec.Tile.subX
      dsimp only
      rw [if_pos (by omega)]
      rw [show (2 * (i : Int) + 1 - 1).toNat = 2 * i by omega, show (2 * (i : Int) + 1 - 1 + 1).toNat = 2 * i + 1 by omega,
        show (2 * (n : Int)).toNat = 2 * n by omega]
      rfl
    · rw [← e2]
      show Spec.Tile.subX _ _ (2 * (i : Int) + 1) (2 * (n : Int)) = _
      unfold Spec.Tile.subX
      dsimp only
      rw [if_pos (by omega)]
      rw [show (2 * (i : Int) + 1).toNat = 2 * i + 1 by omega, show (2 * (i : Int) + 1 + 1).toNat = 2 * i + 1 + 1 by omega,
        show (2 * (n : Int)).toNat = 2 * n by omega]
      rfl

end SG
