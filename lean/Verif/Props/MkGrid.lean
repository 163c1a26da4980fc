import Verif.Model.MkGrid
import Verif.Props.ComputeGrid
import Verif.Props.GridIO
/-! # C26–C29: `mkgrid` -/

set_option linter.unusedSectionVars false

namespace SG
variable {F : Type} [PyFloat F]

theorem pyIdx_nat (n k : Nat) (h : k < n) : pyIdx n (k : Int) = some k := by
  unfold pyIdx; rw [if_pos (by omega), if_pos (by omega)]; simp

theorem Mat.setAtI_nat {α : Type} (m : Mat α) (i j : Nat) (v : α) (hi : i < m.rows) (hj : j < m.cols) :
    m.setAtI (i : Int) (j : Int) v = .ok (m.set i j v) := by
  unfold Mat.setAtI; rw [pyIdx_nat _ _ hi, pyIdx_nat _ _ hj]

/-- The compute grid of `mkgrid` before subdivision: longitudes. -/
def mkX (lon1 lon2 : F) (m n : Nat) : Mat F :=
  ((((Mat.full (2 * m + 3) (2 * n + 3) Arith.zero).set 1 1 lon1).set 1 (1 + 2 * n) lon1).set
    (1 + 2 * m) 1 lon2).set (1 + 2 * m) (1 + 2 * n) lon2

/-- ... and latitudes. -/
def mkY (lat1 lat2 : F) (m n : Nat) : Mat F :=
  ((((Mat.full (2 * m + 3) (2 * n + 3) Arith.zero).set 1 1 lat2).set (1 + 2 * m) 1 lat2).set
    1 (1 + 2 * n) lat1).set (1 + 2 * m) (1 + 2 * n) lat1

theorem mkgrid_eq (geod : Geod F) (lon1 lat1 lon2 lat2 : F) (m n : Nat) :
    mkgrid geod lon1 lat1 lon2 lat2 (m : Int) (n : Int) = (do
      let s ← fill geod (mkX lon1 lon2 m n) (mkY lat1 lat2 m n) 1 (1 + 2 * m) 1 (1 + 2 * n) m n
      let g ← tomitgridRing geod s.1 s.2 m n
      return (g, (m : Int), (n : Int))) := by
  have r : ((1 : Int) + 2 * (m : Int) + 1 + 1) = ((2 * m + 3 : Nat) : Int) := by omega
  have c : ((1 : Int) + 2 * (n : Int) + 1 + 1) = ((2 * n + 3 : Nat) : Int) := by omega
  have i : ((1 : Int) + 2 * (m : Int)) = ((1 + 2 * m : Nat) : Int) := by omega
  have j : ((1 : Int) + 2 * (n : Int)) = ((1 + 2 * n : Nat) : Int) := by omega
  have o : (1 : Int) = ((1 : Nat) : Int) := rfl
  have z : (zerosI ((2 * m + 3 : Nat) : Int) ((2 * n + 3 : Nat) : Int) : Py (Mat F)) =
      .ok (Mat.full (2 * m + 3) (2 * n + 3) Arith.zero) := by
    unfold zerosI; rw [if_neg (by omega), Int.toNat_natCast, Int.toNat_natCast]
  have st : ∀ (M : Mat F) (x y : Int) (a b : Nat) (v : F), x = a → y = b →
      M.rows = 2 * m + 3 → M.cols = 2 * n + 3 →
      a ≤ 1 + 2 * m → b ≤ 1 + 2 * n → M.setAtI x y v = .ok (M.set a b v) := by
    intro M x y a b v hx hy h1 h2 h3 h4
    subst hx hy
    exact Mat.setAtI_nat M a b v (by omega) (by omega)
  have h1 : 1 ≤ 1 + 2 * m := by omega
  have h2 : 1 ≤ 1 + 2 * n := by omega
  unfold mkgrid
  dsimp only
  rw [r, c, z, Py.ok_bind, Py.ok_bind, i, j]
  rw [st (Mat.full (2 * m + 3) (2 * n + 3) Arith.zero) 1 1 1 1 lon1 rfl rfl rfl rfl h1 h2]
  rw [Py.ok_bind, st _ 1 (1 + 2 * n : Nat) 1 (1 + 2 * n) lon1 rfl rfl rfl rfl h1 (Nat.le_refl _)]
  rw [Py.ok_bind, st _ (1 + 2 * m : Nat) 1 (1 + 2 * m) 1 lon2 rfl rfl rfl rfl (Nat.le_refl _) h2]
  rw [Py.ok_bind, st _ (1 + 2 * m : Nat) (1 + 2 * n : Nat) (1 + 2 * m) (1 + 2 * n) lon2 rfl rfl rfl rfl (Nat.le_refl _) (Nat.le_refl _)]
  rw [Py.ok_bind, st (Mat.full (2 * m + 3) (2 * n + 3) Arith.zero) 1 1 1 1 lat2 rfl rfl rfl rfl h1 h2]
  rw [Py.ok_bind, st _ (1 + 2 * m : Nat) 1 (1 + 2 * m) 1 lat2 rfl rfl rfl rfl (Nat.le_refl _) h2]
  rw [Py.ok_bind, st _ 1 (1 + 2 * n : Nat) 1 (1 + 2 * n) lat1 rfl rfl rfl rfl h1 (Nat.le_refl _)]
  rw [Py.ok_bind, st _ (1 + 2 * m : Nat) (1 + 2 * n : Nat) (1 + 2 * m) (1 + 2 * n) lat1 rfl rfl rfl rfl (Nat.le_refl _) (Nat.le_refl _)]
  rw [Py.ok_bind]
  have e1 : (((1 + 2 * m : Nat) : Int) + 1).toNat = 1 + 2 * m + 1 := by omega
  have e2 : (((1 + 2 * n : Nat) : Int) + 1).toNat = 1 + 2 * n + 1 := by omega
  rw [e1, e2]
  rfl

theorem mk_window (lon1 lat1 lon2 lat2 : F) (m n : Nat) (hm : 0 < m) (hn : 0 < n) :
    Spec.FillWindow (mkX lon1 lon2 m n) (mkY lat1 lat2 m n) 1 (1 + 2 * m) 1 (1 + 2 * n) m n where
  rows := rfl
  cols := rfl
  hls := hm
  hlt := hn
  i := ⟨1, by decide, by omega⟩
  j := ⟨1, by decide, by omega⟩
  hiub := by show 1 + 2 * m < 2 * m + 3; omega
  hjub := by show 1 + 2 * n < 2 * n + 3; omega

/-- What `mkgrid` computes: `fill` on the four corner points, then `tomitgrid`. -/
theorem mkgrid_ok [ZeroLaw F] (geod : Geod F) (lon1 lat1 lon2 lat2 : F) (m n : Nat)
    (hm : 0 < m) (hn : 0 < n) :
    ∃ s g, fill geod (mkX lon1 lon2 m n) (mkY lat1 lat2 m n) 1 (1 + 2 * m) 1 (1 + 2 * n) m n = .ok s ∧
      Spec.Ringed s.1 s.2 m n ∧ tomitgridRing geod s.1 s.2 m n = .ok g ∧
      mkgrid geod lon1 lat1 lon2 lat2 (m : Int) (n : Int) = .ok (g, (m : Int), (n : Int)) := by
  obtain ⟨s, e, ⟨a, b, c, d⟩, -, -⟩ :=
    C17_fill_preserves geod _ _ _ _ _ _ _ _ (mk_window lon1 lat1 lon2 lat2 m n hm hn)
  have hr : Spec.Ringed s.1 s.2 m n := ⟨a, b, c, d⟩
  obtain ⟨g, hg, -⟩ := C21_tomitgrid_complete geod s.1 s.2 m n hr
  refine ⟨s, g, e, hr, hg, ?_⟩
  rw [mkgrid_eq, e, Py.ok_bind, hg, Py.ok_bind]
  rfl

/-- **C27**: for subscales `m, n ≥ 1` `mkgrid` succeeds, returns the counts `m`, `n` and all 16 arrays with the
documented sizes. -/
theorem C27_mkgrid_sizes [ZeroLaw F] (geod : Geod F) (lon1 lat1 lon2 lat2 : F) (m n : Nat)
    (hm : 1 ≤ m) (hn : 1 ≤ n) :
    ∃ g, mkgrid geod lon1 lat1 lon2 lat2 (m : Int) (n : Int) = .ok (g, (m : Int), (n : Int)) ∧
      Spec.Complete g m n := by
  obtain ⟨s, g, -, hr, hg, e⟩ := mkgrid_ok geod lon1 lat1 lon2 lat2 m n hm hn
  obtain ⟨g', hg', hc⟩ := C21_tomitgrid_complete geod s.1 s.2 m n hr
  rw [hg] at hg'; cases hg'
  exact ⟨g, e, hc⟩

/-- **C26**: the north-west point `(lon1,lat1)` is at `[0,-1]`, the south-east point `(lon2,lat2)` at `[-1,0]`,
the mixed corners `(lon1,lat2)` and `(lon2,lat1)` at `[0,0]` and `[-1,-1]`. -/
theorem C26_mkgrid_corners [ZeroLaw F] (geod : Geod F) (lon1 lat1 lon2 lat2 : F) (m n : Nat)
    (hm : 1 ≤ m) (hn : 1 ≤ n) (g : Grid F) (ni nj : Int)
    (h : mkgrid geod lon1 lat1 lon2 lat2 (m : Int) (n : Int) = .ok (g, ni, nj)) :
    ∃ XG YG, g .XG = .arr XG ∧ g .YG = .arr YG ∧
      (XG.atI 0 (-1) = .ok lon1 ∧ YG.atI 0 (-1) = .ok lat1) ∧
      (XG.atI (-1) 0 = .ok lon2 ∧ YG.atI (-1) 0 = .ok lat2) ∧
      (XG.atI 0 0 = .ok lon1 ∧ YG.atI 0 0 = .ok lat2) ∧
      (XG.atI (-1) (-1) = .ok lon2 ∧ YG.atI (-1) (-1) = .ok lat1) := by
  obtain ⟨s, g', e, hr, hg, eq⟩ := mkgrid_ok geod lon1 lat1 lon2 lat2 m n hm hn
  rw [eq] at h; cases h
  obtain ⟨s', e', -, -, hnode⟩ :=
    C17_fill_preserves geod _ _ _ _ _ _ _ _ (mk_window lon1 lat1 lon2 lat2 m n hm hn)
  rw [e] at e'; cases e'
  obtain ⟨g'', XG, YG, -, -, hg', x1, y1, -, -, hv, -⟩ := C22_partition geod s.1 s.2 m n hr
  rw [hg] at hg'; cases hg'
  obtain ⟨g'', hg', hc⟩ := C21_tomitgrid_complete geod s.1 s.2 m n hr
  rw [hg] at hg'; cases hg'
  obtain ⟨X', x1', xr, xc⟩ := hc .XG
  obtain ⟨Y', y1', yr, yc⟩ := hc .YG
  rw [x1] at x1'; cases x1'
  rw [y1] at y1'; cases y1'
  simp only [Spec.nrows, Spec.ncols] at xr xc yr yc
  have last : ∀ k : Nat, pyIdx (k + 1) (-1) = some k := by
    intro k; unfold pyIdx; rw [if_neg (by omega), if_pos (by omega)]; congr 1; omega
  have first : ∀ k : Nat, pyIdx (k + 1) 0 = some 0 := by
    intro k; unfold pyIdx; rw [if_pos (by omega), if_pos (by omega)]; rfl
  have n00 := hnode 0 0
  have n01 := hnode 0 1
  have n10 := hnode 1 0
  have n11 := hnode 1 1
  simp only [Spec.at, Nat.zero_mul, Nat.one_mul, Nat.add_zero, Prod.mk.injEq] at n00 n01 n10 n11
  have v00 := hv 0 0 (by omega) (by omega)
  have v01 := hv 0 n (by omega) (by omega)
  have v10 := hv m 0 (by omega) (by omega)
  have v11 := hv m n (by omega) (by omega)
  simp only [Nat.mul_zero, Nat.add_zero] at v00 v01 v10 v11
  have hm2 : ¬ 2 * m = 0 := by omega
  have hn2 : ¬ 2 * n = 0 := by omega
  refine ⟨XG, YG, x1, y1, ⟨?_, ?_⟩, ⟨?_, ?_⟩, ⟨?_, ?_⟩, ⟨?_, ?_⟩⟩ <;>
    unfold Mat.atI <;> simp only [xr, xc, yr, yc, last, first] <;> congr 1
  · rw [v01.1, n01.1]; simp only [mkX, Mat.set, Nat.add_eq_left, Nat.left_eq_add, hm2, hn2, Mat.full, and_self, and_true, true_and, and_false, false_and, if_true, if_false]
  · rw [v01.2, n01.2]; simp only [mkY, Mat.set, Nat.add_eq_left, Nat.left_eq_add, hm2, hn2, Mat.full, and_self, and_true, true_and, and_false, false_and, if_true, if_false]
  · rw [v10.1, n10.1]; simp only [mkX, Mat.set, Nat.add_eq_left, Nat.left_eq_add, hm2, hn2, Mat.full, and_self, and_true, true_and, and_false, false_and, if_true, if_false]
  · rw [v10.2, n10.2]; simp only [mkY, Mat.set, Nat.add_eq_left, Nat.left_eq_add, hm2, hn2, Mat.full, and_self, and_true, true_and, and_false, false_and, if_true, if_false]
  · rw [v00.1, n00.1]; simp only [mkX, Mat.set, Nat.add_eq_left, Nat.left_eq_add, hm2, hn2, Mat.full, and_self, and_true, true_and, and_false, false_and, if_true, if_false]
  · rw [v00.2, n00.2]; simp only [mkY, Mat.set, Nat.add_eq_left, Nat.left_eq_add, hm2, hn2, Mat.full, and_self, and_true, true_and, and_false, false_and, if_true, if_false]
  · rw [v11.1, n11.1]; simp only [mkX, Mat.set, Nat.add_eq_left, Nat.left_eq_add, hm2, hn2, Mat.full, and_self, and_true, true_and, and_false, false_and, if_true, if_false]
  · rw [v11.2, n11.2]; simp only [mkY, Mat.set, Nat.add_eq_left, Nat.left_eq_add, hm2, hn2, Mat.full, and_self, and_true, true_and, and_false, false_and, if_true, if_false]

/-- **C28**: `mkgrid` raises for every non-positive subscale. -/
theorem C28_mkgrid_rejects (geod : Geod F) (lon1 lat1 lon2 lat2 : F) (lonSub latSub : Int)
    (h : lonSub ≤ 0 ∨ latSub ≤ 0) :
    ∃ e, mkgrid geod lon1 lat1 lon2 lat2 lonSub latSub = .error e := by
  by_cases h0 : 0 ≤ lonSub ∧ 0 ≤ latSub
  · obtain ⟨m, rfl⟩ := Int.eq_ofNat_of_zero_le h0.1
    obtain ⟨n, rfl⟩ := Int.eq_ofNat_of_zero_le h0.2
    refine ⟨.valueError, ?_⟩
    rw [mkgrid_eq]
    have : fill geod (mkX lon1 lon2 m n) (mkY lat1 lat2 m n) 1 (1 + 2 * m) 1 (1 + 2 * n) m n =
        .error .valueError := by
      unfold fill; rw [if_pos (by omega)]; rfl
    rw [this]; rfl
  · unfold mkgrid
    dsimp only
    by_cases hz : 1 + 2 * lonSub + 1 + 1 < 0 ∨ 1 + 2 * latSub + 1 + 1 < 0
    · refine ⟨.valueError, ?_⟩
      have : (zerosI (1 + 2 * lonSub + 1 + 1) (1 + 2 * latSub + 1 + 1) : Py (Mat F)) =
        .error .valueError := if_pos hz
      rw [this]; rfl
    · refine ⟨.indexError, ?_⟩
      have : (zerosI (1 + 2 * lonSub + 1 + 1) (1 + 2 * latSub + 1 + 1) : Py (Mat F)) =
        .ok (Mat.full (1 + 2 * lonSub + 1 + 1).toNat (1 + 2 * latSub + 1 + 1).toNat Arith.zero) :=
        if_neg hz
      rw [this, Py.ok_bind, Py.ok_bind]
      have : ∀ v : F, (Mat.full (1 + 2 * lonSub + 1 + 1).toNat (1 + 2 * latSub + 1 + 1).toNat
          Arith.zero).setAtI 1 1 v = .error .indexError := by
        intro v
        unfold Mat.setAtI Mat.full
        by_cases hl : lonSub < 0
        · have : pyIdx (1 + 2 * lonSub + 1 + 1).toNat 1 = none := by
            unfold pyIdx; rw [if_pos (by omega), if_neg (by omega)]
          simp only [this]
        · have : pyIdx (1 + 2 * latSub + 1 + 1).toNat 1 = none := by
            unfold pyIdx; rw [if_pos (by omega), if_neg (by omega)]
          simp only [this]
          split <;> simp_all
      rw [this]; rfl

/-- **C29**: `sgmkgrid` writes a file that a strict read with the same counts accepts and that gives back exactly
the computed grid. -/
theorem C29_sgmkgrid_strict [ZeroLaw F] [F64 F] [LawfulF64 F] (geod : Geod F)
    (lon1 lat1 lon2 lat2 : F) (m n : Nat) (hm : 1 ≤ m) (hn : 1 ≤ n) (old : List Byte) :
    ∃ bytes g g', mkgridMain geod lon1 lat1 lon2 lat2 (m : Int) (n : Int) old = (bytes, .ok ()) ∧
      mkgrid geod lon1 lat1 lon2 lat2 (m : Int) (n : Int) = .ok (g, (m : Int), (n : Int)) ∧
      readMitgrid bytes m n true = .ok g' ∧ Spec.GridSame g g' := by
  obtain ⟨g, e, hc⟩ := C27_mkgrid_sizes geod lon1 lat1 lon2 lat2 m n hm hn
  obtain ⟨bytes, g', hw, hr, hs⟩ := C01_round_trip ZeroLaw.isZero_zero old g m n true hc
  refine ⟨bytes, g, g', ?_, e, hr, hs⟩
  unfold mkgridMain
  rw [e]
  exact hw

/-- **C29**, failing calls: `sgmkgrid` with a non-positive subscale leaves an existing output file alone. -/
theorem C29_sgmkgrid_failure_keeps_file [F64 F] (geod : Geod F) (lon1 lat1 lon2 lat2 : F)
    (lonSub latSub : Int) (h : lonSub ≤ 0 ∨ latSub ≤ 0) (old : List Byte) :
    ∃ e, mkgridMain geod lon1 lat1 lon2 lat2 lonSub latSub old = (old, .error e) := by
  obtain ⟨e, he⟩ := C28_mkgrid_rejects geod lon1 lat1 lon2 lat2 lonSub latSub h
  exact ⟨e, by unfold mkgridMain; rw [he]⟩

set_option maxRecDepth 20000 in
/-- A 2 x 1 grid from (10,20) to (50,10). -/
example : (mkgrid Toy.geod 10 20 50 10 2 1).toOption.map (fun r =>
    ((r.1.arr .XG).toOption.map fun M => [M.get 0 1, M.get 1 0, M.get 2 0], r.2.1, r.2.2))
    = some (some [10, 30, 50], 2, 1) := by
  decide

/-- all the ways of failing: negative size, empty interior, zero stride -/
example : mkgrid Toy.geod 10 20 50 10 (-2) 1 = .error .valueError ∧
    mkgrid Toy.geod 10 20 50 10 (-1) 1 = .error .indexError ∧
    mkgrid Toy.geod 10 20 50 10 0 1 = .error .valueError := ⟨rfl, rfl, rfl⟩

end SG
