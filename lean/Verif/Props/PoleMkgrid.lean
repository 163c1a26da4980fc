import Verif.Props.PoleAreas
import Verif.Props.DoubleLongitudes
import Verif.Props.WholeGrid
/-! # C122 for `mkgrid`: boxes that end at a pole, in doubles -/

set_option linter.unusedSectionVars false
set_option exponentiation.threshold 5000
namespace SG

/-- Latitude 90.0 or -90.0. -/
def Spec.poleLat (north : Bool) : Dbl := if north then Dbl.lit 90 1 else Dbl.opp (Dbl.lit 90 1)

/-- `npts` between two points at the same pole stays there. -/
def Spec.NptsPole (geod : Geod Dbl) : Prop :=
  ∀ north a b N k, (geod.npt a (Spec.poleLat north) b (Spec.poleLat north) N k).2 = Spec.poleLat north

section
variable [Libm]

/-- The four corners of the box of `mkgrid`. -/
def Spec.boxCorners (lon1 lat1 lon2 lat2 : Dbl) (x y : Nat) : Dbl × Dbl := (if x = 0 then lon1 else lon2, if y = 0 then lat2 else lat1)

theorem stored_degrees (east : Bool) {x : Dbl} (f : x.isFin = true) (lo : -180 ≤ x.val) (hi : x.val ≤ 180) :
    Spec.Degrees (if east && PyFloat.lt x Arith.zero then x +ₚ PyFloat.c360 else x) := by
  by_cases hc : (east && PyFloat.lt x Arith.zero) = true
  · rw [if_pos hc]
    have hl : Dbl.lt x (Dbl.lit 0 1) = true := by
      rw [Bool.and_eq_true] at hc; exact hc.2
    have w := (Dbl.wrapped f lo).range hi
    rw [if_pos hl] at w
    show Spec.Degrees (Dbl.add x (Dbl.lit 360 1))
    exact ⟨w.1, abs_le.2 ⟨by linarith [w.2.1], w.2.2⟩⟩
  · rw [if_neg hc]
    exact ⟨f, abs_le.2 ⟨by linarith, by linarith⟩⟩

theorem onArc_pole {geod : Geod Dbl} (hn : Spec.Npts180 geod) (hp : Spec.NptsPole geod) (east : Bool) (N k : Nat) (north : Bool) {A B : Dbl × Dbl}
    (hA : Spec.AtPole north A.1 A.2) (hB : Spec.AtPole north B.1 B.2) :
    Spec.AtPole north (Spec.onArc geod east N A B k).1 (Spec.onArc geod east N A B k).2 := by
  unfold Spec.onArc
  split
  · exact hA
  · obtain ⟨a1, a2⟩ := A
    obtain ⟨b1, b2⟩ := B
    obtain ⟨-, rfl⟩ := hA
    obtain ⟨-, rfl⟩ := hB
    refine ⟨?_, hp north a1 b1 (N - 1) (k - 1)⟩
    obtain ⟨f, lo, hi⟩ := hn a1 (Spec.poleLat north) b1 (Spec.poleLat north) (N - 1) (k - 1)
    exact stored_degrees east f lo hi

/-- **C122** for `mkgrid`: if the northern (`lat1`) or southern (`lat2`) side of the box is at a pole and areas are spherical, then no entry of `rac` and `raw`
in the row of cells along that side is a positive number: each is NaN or zero. -/
theorem C122_mkgrid (lib : Spec.PoleLibm) (geod : Geod Dbl) (hn : Spec.Npts180 geod) (hp : Spec.NptsPole geod) (lon1 lat1 lon2 lat2 : Dbl)
    (m n : Nat) (hm : 1 ≤ m) (hn1 : 1 ≤ n) (h1 : Spec.Degrees lon1) (h2 : Spec.Degrees lon2)
    (hs : (Spec.refinedTile geod (!Dbl.lt lon1 (Dbl.lit 0 1) && !Dbl.lt lon2 (Dbl.lit 0 1)) m n 1 1
      (Spec.boxCorners lon1 lat1 lon2 lat2)).usePlanar geod.inv = false) :
    ∃ g, mkgrid geod lon1 lat1 lon2 lat2 (m : Int) (n : Int) = .ok (g, (m : Int), (n : Int)) ∧
      ∀ f, f = .RAC ∨ f = .RAW → ∃ M, g f = .arr M ∧ M.rows = Spec.nrows f m ∧ M.cols = n ∧ ∀ i north, i < Spec.nrows f m →
        (lat1 = Spec.poleLat north → (M.get i (n - 1)).isNaN = true ∨ M.get i (n - 1) = Dbl.lit 0 1) ∧
        (lat2 = Spec.poleLat north → (M.get i 0).isNaN = true ∨ M.get i 0 = Dbl.lit 0 1) := by
  obtain ⟨g, e, east, he, v⟩ := C124_mkgrid geod lon1 lat1 lon2 lat2 m n hm hn1
  have e' : (!Dbl.lt lon1 (Dbl.lit 0 1) && !Dbl.lt lon2 (Dbl.lit 0 1)) = east := by
    rw [Bool.eq_iff_iff, he]
    simp only [Bool.and_eq_true, Bool.not_eq_true']
    constructor
    · rintro ⟨a, b⟩ x y - -
      show Dbl.lt (if x = 0 then lon1 else lon2) (Dbl.lit 0 1) = false
      split
      · exact a
      · exact b
    · intro h
      exact ⟨h 0 0 (by omega) (by omega), h 1 0 (by omega) (by omega)⟩
  rw [e'] at hs
  refine ⟨g, e, fun f hf => ?_⟩
  obtain ⟨M, hM, r, c, w⟩ := v f
  rw [Nat.one_mul] at r
  rw [Nat.one_mul] at c
  have hc : Spec.ncols f n = n := by rcases hf with rfl | rfl <;> rfl
  have hk : Spec.kind f = .area := by rcases hf with rfl | rfl <;> rfl
  have hj : ∀ j, Spec.halfJ f j = 2 * j + 1 := by rcases hf with rfl | rfl <;> exact fun _ => rfl
  rw [hc] at c
  refine ⟨M, hM, r, c, fun i north hi => ?_⟩
  -- a quarter cell with a side at the pole
  have key : ∀ j (b : Nat), j < n → b < 2 * n → ((b : Int) = 2 * j + 1 ∨ (b : Int) = 2 * j) →
      (∀ a : Nat, a < 2 * m → Spec.PoleSide (fun k l => (Spec.refined geod east m n (Spec.boxCorners lon1 lat1 lon2 lat2) k l).1)
        (fun k l => (Spec.refined geod east m n (Spec.boxCorners lon1 lat1 lon2 lat2) k l).2) a b) →
      (M.get i j).isNaN = true ∨ M.get i j = Dbl.lit 0 1 := by
    intro j b hjn hb hbj side
    rw [w i j (by rw [Nat.one_mul]; exact hi) (by rw [Nat.one_mul, hc]; exact hjn)]
    have hs' : (Spec.refinedTile geod east m n 1 1 fun x y => (if x = 0 then lon1 else lon2, if y = 0 then lat2 else lat1)).usePlanar geod.inv = false := hs
    rw [hs']
    obtain ⟨a, ha, hai⟩ : ∃ a : Nat, a < 2 * m ∧ ((a : Int) = Spec.halfI f i ∨ (a : Int) = Spec.halfI f i - 1) := by
      rcases hf with rfl | rfl
      · exact ⟨2 * i, by simp only [Spec.nrows] at hi; omega, .inr (by show ((2 * i : Nat) : Int) = 2 * i + 1 - 1; omega)⟩
      · simp only [Spec.nrows] at hi
        by_cases h0 : i = 0
        · exact ⟨0, by omega, .inl (by subst h0; rfl)⟩
        · exact ⟨2 * i - 1, by omega, .inr (by show ((2 * i - 1 : Nat) : Int) = 2 * i - 1; omega)⟩
    unfold Spec.Tile.entry
    rw [hk]
    refine sumOrZero_nan _ ⟨(Spec.refinedTile geod east m n 1 1 (Spec.boxCorners lon1 lat1 lon2 lat2)).subA (Spec.quad geod false) a b, ?_, ?_⟩
    · simp only [List.mem_cons, List.not_mem_nil, or_false]
      have hbj' : (b : Int) = Spec.halfJ f j ∨ (b : Int) = Spec.halfJ f j - 1 := by rw [hj]; omega
      rcases hai with x1 | x1 <;> rcases hbj' with x2 | x2 <;> rw [x1, x2] <;> simp [Spec.refinedTile] <;> tauto
    · unfold Spec.Tile.subA
      have em : (Spec.refinedTile geod east m n 1 1 (Spec.boxCorners lon1 lat1 lon2 lat2)).m = m := Nat.one_mul m
      have en : (Spec.refinedTile geod east m n 1 1 (Spec.boxCorners lon1 lat1 lon2 lat2)).n = n := Nat.one_mul n
      rw [if_pos (by rw [em, en]; omega)]
      have q := quadOf_pole lib geod (side a ha)
      have t : ∀ k : Nat, ((k : Int) + 1).toNat = k + 1 := fun k => by omega
      simp only [Spec.refinedTile, t, Int.toNat_natCast]
      exact q
  -- the sides of the box
  have pole : ∀ y : Nat, y ≤ 1 → (Spec.boxCorners lon1 lat1 lon2 lat2 0 y).2 = Spec.poleLat north → ∀ a, a ≤ 2 * m →
      Spec.AtPole north (Spec.refined geod east m n (Spec.boxCorners lon1 lat1 lon2 lat2) a (y * (2 * n))).1
        (Spec.refined geod east m n (Spec.boxCorners lon1 lat1 lon2 lat2) a (y * (2 * n))).2 := by
    intro y hy hl a ha
    unfold Spec.refined
    have d : y * (2 * n) / (2 * n) = y := Nat.mul_div_cancel _ (by omega)
    have d' : y * (2 * n) % (2 * n) = 0 := Nat.mul_mod_left _ _
    simp only [d, d']
    have corner : ∀ x, Spec.AtPole north (Spec.boxCorners lon1 lat1 lon2 lat2 x y).1 (Spec.boxCorners lon1 lat1 lon2 lat2 x y).2 := by
      intro x
      refine ⟨?_, hl⟩
      show Spec.Degrees (if x = 0 then lon1 else lon2)
      split
      · exact h1
      · exact h2
    have := onArc_pole hn hp east (2 * m) (a % (2 * m)) north (corner (a / (2 * m))) (corner (a / (2 * m) + 1))
    unfold Spec.onArc at this ⊢
    rw [if_pos rfl]
    exact this
  constructor
  · intro hl
    refine key (n - 1) (2 * n - 1) (by omega) (by omega) (.inl (by omega)) fun a ha => ⟨north, .inr (.inr (.inl ?_))⟩
    have p1 := pole 1 (by omega) hl
    rw [Nat.one_mul] at p1
    have e2 : 2 * n - 1 + 1 = 2 * n := by omega
    rw [e2]
    exact ⟨p1 (a + 1) (by omega), p1 a (by omega)⟩
  · intro hl
    refine key 0 0 (by omega) (by omega) (.inr (by omega)) fun a ha => ⟨north, .inl ?_⟩
    have p1 := pole 0 (by omega) hl
    rw [Nat.zero_mul] at p1
    exact ⟨p1 a (by omega), p1 (a + 1) (by omega)⟩

end

section Example
attribute [local instance] exPoleLibm

/-- A crude geodesic solver that stays at the poles. -/
def exPoleGeod : Geod Dbl := ⟨fun _ _ _ _ => Dbl.lit 20000 1, fun _ b _ _ _ _ => (Dbl.lit 0 1, b), Dbl.lit 1 1⟩

example : Spec.PoleLibm ∧ Spec.Npts180 exPoleGeod ∧ Spec.NptsPole exPoleGeod := by
  refine ⟨exPole, fun a b c d n k => ?_, fun north a b N k => rfl⟩
  show (Dbl.lit 0 1).isFin = true ∧ -180 ≤ (Dbl.lit 0 1).val ∧ (Dbl.lit 0 1).val ≤ 180
  rw [Dbl.zero_val]
  exact ⟨by decide +kernel, by norm_num, by norm_num⟩

/-- The areas of the box from 60 to 90 degrees north and 0 to 30 degrees east are spherical, -/
example : (Spec.refinedTile exPoleGeod (!Dbl.lt (Dbl.lit 0 1) (Dbl.lit 0 1) && !Dbl.lt (Dbl.lit 30 1) (Dbl.lit 0 1)) 1 2 1 1
    (Spec.boxCorners (Dbl.lit 0 1) (Spec.poleLat true) (Dbl.lit 30 1) (Dbl.lit 60 1))).usePlanar exPoleGeod.inv = false := by
  decide +kernel

/-- and the areas of its upper cells are NaN, those of its lower cells are not. -/
example : (mkgrid exPoleGeod (Dbl.lit 0 1) (Spec.poleLat true) (Dbl.lit 30 1) (Dbl.lit 60 1) 1 2).toOption.map (fun r => match r.1 .RAC with
      | .arr M => ((M.get 0 1).isNaN, (M.get 0 0).isNaN)
      | _ => (false, false)) = some (true, false) := by
  decide +kernel

end Example
end SG
