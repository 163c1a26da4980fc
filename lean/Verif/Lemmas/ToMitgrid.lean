import Verif.Lemmas.ComputeGrid
import Verif.Spec.CGrid

set_option linter.unusedSectionVars false

namespace SG

section
variable {F : Type} [Arith F]

theorem quadLoop_spec (cell : V3 F → V3 F → V3 F → V3 F → F) (cart : Mat (V3 F)) :
    ∃ u, quadLoop cell cart = .ok u ∧ u.rows = cart.rows - 1 ∧ u.cols = cart.cols - 1 ∧
      ∀ i j, i < cart.rows - 1 → j < cart.cols - 1 → u.get i j =
        cell (cart.get i j) (cart.get (i + 1) j) (cart.get (i + 1) (j + 1)) (cart.get i (j + 1)) := by
  obtain ⟨u, h1, h2, h3, h4⟩ := assignLoop_spec 0 (cart.rows - 1) 0 (cart.cols - 1) (fun i j => do
    let ptA ← cart.at' i j
    let ptB ← cart.at' (i + 1) j
    let ptC ← cart.at' (i + 1) (j + 1)
    let ptD ← cart.at' i (j + 1)
    return some (cell ptA ptB ptC ptD))
    (Mat.full (cart.rows - 1) (cart.cols - 1) Arith.zero)
    (fun i j => some (cell (cart.get i j) (cart.get (i + 1) j) (cart.get (i + 1) (j + 1))
      (cart.get i (j + 1))))
    (by
      intro i j _ _ _ _
      rw [cart.at'_ok i j (by omega) (by omega), cart.at'_ok (i + 1) j (by omega) (by omega),
        cart.at'_ok (i + 1) (j + 1) (by omega) (by omega), cart.at'_ok i (j + 1) (by omega) (by omega)]
      rfl)
    (Nat.le_refl _) (Nat.le_refl _)
  refine ⟨u, h1, h2, h3, fun i j hi hj => ?_⟩
  rw [h4, if_pos ⟨by omega, hi, by omega, hj⟩]; rfl
end

variable {F : Type} [PyFloat F]

/-- The formula chosen by `areas`, on lon/lat pairs. -/
def quadOf (geod : Geod F) (planar : Bool) (p q r s : F × F) : F :=
  (if planar then pquadCell else squadCell)
    (lonlat2cart1 p.1 p.2) (lonlat2cart1 q.1 q.2) (lonlat2cart1 r.1 r.2) (lonlat2cart1 s.1 s.2)
    *ₚ (geod.a *ₚ geod.a)

theorem areas_spec (geod : Geod F) (xg yg ex ey : Mat F) (hr : yg.rows = xg.rows)
    (hc : yg.cols = xg.cols) (h0 : 0 < xg.rows) (h1 : 0 < xg.cols) :
    ∃ u, areas geod xg yg ex ey = .ok u ∧ u.rows = xg.rows - 1 ∧ u.cols = xg.cols - 1 ∧
      ∀ i j, i < xg.rows - 1 → j < xg.cols - 1 → u.get i j =
        quadOf geod (PyFloat.lt (PyFloat.mean (nonzeros ex)) PyFloat.planar &&
            PyFloat.lt (PyFloat.mean (nonzeros ey)) PyFloat.planar)
          (pt (xg, yg) i j) (pt (xg, yg) (i + 1) j) (pt (xg, yg) (i + 1) (j + 1))
          (pt (xg, yg) i (j + 1)) := by
  unfold areas
  have e : lonlat2cart xg yg (Arith.mul Arith.half Arith.two) =
      .ok ⟨xg.rows, xg.cols, fun i j => lonlat2cart1 (xg.get i j) (yg.get i j)⟩ := by
    unfold lonlat2cart; rw [if_neg (by omega)]
  rw [e]
  simp only [Py.ok_bind]
  generalize hb : (PyFloat.lt (PyFloat.mean (nonzeros ex)) PyFloat.planar &&
            PyFloat.lt (PyFloat.mean (nonzeros ey)) PyFloat.planar) = b
  cases b with
  | true =>
    obtain ⟨u, g1, g2, g3, g4⟩ := quadLoop_spec pquadCell
      (⟨xg.rows, xg.cols, fun i j => lonlat2cart1 (xg.get i j) (yg.get i j)⟩ : Mat (V3 F))
    refine ⟨{ u with get := fun i j => u.get i j *ₚ (geod.a *ₚ geod.a) }, ?_, g2, g3, ?_⟩
    · unfold pquadUarea
      rw [if_pos rfl, if_neg (by simp only; omega), g1]; rfl
    · intro i j hi hj; simp only; rw [g4 i j hi hj]; rfl
  | false =>
    obtain ⟨u, g1, g2, g3, g4⟩ := quadLoop_spec squadCell
      (⟨xg.rows, xg.cols, fun i j => lonlat2cart1 (xg.get i j) (yg.get i j)⟩ : Mat (V3 F))
    refine ⟨{ u with get := fun i j => u.get i j *ₚ (geod.a *ₚ geod.a) }, ?_, g2, g3, ?_⟩
    · unfold squadUarea
      rw [if_neg (by simp), if_neg (by simp only; omega), g1]; rfl
    · intro i j hi hj; simp only; rw [g4 i j hi hj]; rfl

theorem sumLoop_spec (r c : Nat) (e : Nat → Nat → Py (Option F)) (val : Nat → Nat → Option F)
    (he : ∀ i j, i < r → j < c → e i j = .ok (val i j)) :
    ∃ m, sumLoop r c r c e = .ok m ∧ m.rows = r ∧ m.cols = c ∧
      ∀ i j, i < r → j < c → m.get i j = (val i j).getD Arith.zero := by
  obtain ⟨m, h1, h2, h3, h4⟩ := assignLoop_spec 0 r 0 c e (Mat.full r c (Arith.zero : F)) val
    (fun i j _ hi _ hj => he i j hi hj) (Nat.le_refl _) (Nat.le_refl _)
  refine ⟨m, h1, h2, h3, fun i j hi hj => ?_⟩
  rw [h4, if_pos ⟨by omega, hi, by omega, hj⟩]; rfl

theorem sum2_loop (M : Mat F) (r c : Nat) (a1 b1 a2 b2 : Nat → Nat → Nat)
    (h1 : ∀ i j, i < r → j < c → a1 i j < M.rows ∧ b1 i j < M.cols)
    (h2 : ∀ i j, i < r → j < c → a2 i j < M.rows ∧ b2 i j < M.cols) :
    ∃ m, sumLoop r c r c (fun i j => sum2 (M.at' (a1 i j) (b1 i j)) (M.at' (a2 i j) (b2 i j))) = .ok m ∧
      m.rows = r ∧ m.cols = c ∧ ∀ i j, i < r → j < c →
        m.get i j = Spec.sumOrZero [M.get (a1 i j) (b1 i j), M.get (a2 i j) (b2 i j)] := by
  obtain ⟨m, e1, e2, e3, e4⟩ := sumLoop_spec r c
    (fun i j => sum2 (M.at' (a1 i j) (b1 i j)) (M.at' (a2 i j) (b2 i j)))
    (fun i j => if PyFloat.isZero (M.get (a1 i j) (b1 i j)) || PyFloat.isZero (M.get (a2 i j) (b2 i j))
      then none else some (M.get (a1 i j) (b1 i j) +ₚ M.get (a2 i j) (b2 i j)))
    (by
      intro i j hi hj
      unfold sum2
      rw [M.at'_ok _ _ (h1 i j hi hj).1 (h1 i j hi hj).2, M.at'_ok _ _ (h2 i j hi hj).1 (h2 i j hi hj).2]
      rfl)
  refine ⟨m, e1, e2, e3, fun i j hi hj => ?_⟩
  rw [e4 i j hi hj]
  unfold Spec.sumOrZero
  simp only [List.any_cons, List.any_nil, Bool.or_false]
  split <;> rfl

theorem sum4_loop (M : Mat F) (r c : Nat) (a1 b1 a2 b2 a3 b3 a4 b4 : Nat → Nat → Nat)
    (h1 : ∀ i j, i < r → j < c → a1 i j < M.rows ∧ b1 i j < M.cols)
    (h2 : ∀ i j, i < r → j < c → a2 i j < M.rows ∧ b2 i j < M.cols)
    (h3 : ∀ i j, i < r → j < c → a3 i j < M.rows ∧ b3 i j < M.cols)
    (h4 : ∀ i j, i < r → j < c → a4 i j < M.rows ∧ b4 i j < M.cols) :
    ∃ m, sumLoop r c r c (fun i j => sum4 (M.at' (a1 i j) (b1 i j)) (M.at' (a2 i j) (b2 i j))
        (M.at' (a3 i j) (b3 i j)) (M.at' (a4 i j) (b4 i j))) = .ok m ∧
      m.rows = r ∧ m.cols = c ∧ ∀ i j, i < r → j < c →
        m.get i j = Spec.sumOrZero [M.get (a1 i j) (b1 i j), M.get (a2 i j) (b2 i j),
          M.get (a3 i j) (b3 i j), M.get (a4 i j) (b4 i j)] := by
  obtain ⟨m, e1, e2, e3, e4⟩ := sumLoop_spec r c
    (fun i j => sum4 (M.at' (a1 i j) (b1 i j)) (M.at' (a2 i j) (b2 i j))
        (M.at' (a3 i j) (b3 i j)) (M.at' (a4 i j) (b4 i j)))
    (fun i j => if PyFloat.isZero (M.get (a1 i j) (b1 i j)) || PyFloat.isZero (M.get (a2 i j) (b2 i j))
        || PyFloat.isZero (M.get (a3 i j) (b3 i j)) || PyFloat.isZero (M.get (a4 i j) (b4 i j))
      then none else some (M.get (a1 i j) (b1 i j) +ₚ M.get (a2 i j) (b2 i j)
        +ₚ M.get (a3 i j) (b3 i j) +ₚ M.get (a4 i j) (b4 i j)))
    (by
      intro i j hi hj
      unfold sum4
      rw [M.at'_ok _ _ (h1 i j hi hj).1 (h1 i j hi hj).2, M.at'_ok _ _ (h2 i j hi hj).1 (h2 i j hi hj).2,
        M.at'_ok _ _ (h3 i j hi hj).1 (h3 i j hi hj).2, M.at'_ok _ _ (h4 i j hi hj).1 (h4 i j hi hj).2]
      rfl)
  refine ⟨m, e1, e2, e3, fun i j hi hj => ?_⟩
  rw [e4 i j hi hj]
  unfold Spec.sumOrZero
  simp only [List.any_cons, List.any_nil, Bool.or_false, Bool.or_assoc]
  split <;> rfl

/-! ### nonzero elements of ring-padded arrays -/

theorem filter_range_pad (p : F → Bool) (g : Nat → F) (n : Nat) (h0 : p (g 0) = false)
    (h1 : p (g (n + 1)) = false) :
    ((List.range (n + 2)).map g).filter p = ((List.range n).map fun k => g (k + 1)).filter p := by
  rw [show n + 2 = 1 + n + 1 by omega, List.range_add, List.range_add]
  simp only [List.map_append, List.filter_append, List.map_map]
  have a : ((List.range 1).map g).filter p = [] := by simp [List.range_succ, h0]
  have b : ((List.range 1).map (g ∘ fun x => 1 + n + x)).filter p = [] := by
    simp [List.range_succ, Nat.add_comm 1 n, h1]
  rw [a, b, List.append_nil, List.nil_append]
  congr 1
  apply List.map_congr_left
  intro k _
  simp [Nat.add_comm]

theorem filter_map_all_false {α : Type} (p : F → Bool) (g : α → F) (l : List α)
    (h : ∀ x ∈ l, p (g x) = false) : (l.map g).filter p = [] := by
  rw [List.filter_eq_nil_iff]
  intro a ha
  obtain ⟨x, hx, rfl⟩ := List.mem_map.1 ha
  rw [h x hx]; simp

theorem filter_flatMap' {α : Type} (p : F → Bool) (g : α → List F) (l : List α) :
    (l.flatMap g).filter p = l.flatMap fun x => (g x).filter p := by
  induction l with
  | nil => rfl
  | cons a t ih => simp [List.flatMap_cons, List.filter_append, ih]

theorem flatMap_congr' {α β : Type} {f g : α → List β} {l : List α} (h : ∀ x ∈ l, f x = g x) :
    l.flatMap f = l.flatMap g := by
  induction l with
  | nil => rfl
  | cons a t ih =>
    rw [List.flatMap_cons, List.flatMap_cons, h a (by simp), ih fun x hx => h x (by simp [hx])]

theorem flatMap_range_pad (g : Nat → List F) (n : Nat) (h0 : g 0 = []) (h1 : g (n + 1) = []) :
    (List.range (n + 2)).flatMap g = (List.range n).flatMap fun k => g (k + 1) := by
  rw [show n + 2 = 1 + n + 1 by omega, List.range_add, List.range_add]
  simp only [List.flatMap_append, List.flatMap_map]
  have a : (List.range 1).flatMap g = [] := by simp [List.range_succ, h0]
  have b : (List.range 1).flatMap (fun x => g (1 + n + x)) = [] := by
    simp [List.range_succ, Nat.add_comm 1 n, h1]
  rw [a, b, List.append_nil, List.nil_append]
  have : (fun a => g (1 + a)) = fun k => g (k + 1) := by funext k; rw [Nat.add_comm]
  rw [this]

theorem nonzeros_pad [ZeroLaw F] (M : Mat F) (R C : Nat) (hR : M.rows = R + 2) (hC : M.cols = C + 2)
    (hz : ∀ i j, i < R + 2 → j < C + 2 → (i = 0 ∨ i = R + 1 ∨ j = 0 ∨ j = C + 1) →
      M.get i j = Arith.zero) :
    nonzeros M = ((List.range R).flatMap fun a => (List.range C).map fun b =>
      M.get (a + 1) (b + 1)).filter fun x => !PyFloat.isZero x := by
  have z : (!PyFloat.isZero (Arith.zero : F)) = false := by rw [ZeroLaw.isZero_zero]; rfl
  unfold nonzeros Mat.toList
  rw [hR, hC, filter_flatMap', filter_flatMap', flatMap_range_pad]
  · apply flatMap_congr'
    intro a ha
    have := List.mem_range.1 ha
    rw [filter_range_pad (fun x => !PyFloat.isZero x)]
    · rw [hz _ _ (by omega) (by omega) (by omega)]; exact z
    · rw [hz _ _ (by omega) (by omega) (by omega)]; exact z
  · apply filter_map_all_false
    intro j hj
    rw [hz _ _ (by omega) (by simpa using hj) (by omega)]; exact z
  · apply filter_map_all_false
    intro j hj
    rw [hz _ _ (by omega) (by simpa using hj) (by omega)]; exact z

/-! ### tomitgrid -/

/-- The tile described by a compute grid with a one-cell ring. -/
def tileOf (xg yg : Mat F) (m n : Nat) : Spec.Tile F :=
  ⟨m, n, fun a b => pt (xg, yg) (a + 1).toNat (b + 1).toNat⟩

theorem toNat_succ (k : Nat) : ((k : Int) + 1).toNat = k + 1 := by omega

theorem stridedC_shape (x : Mat F) (m n : Nat) (h1 : x.rows = 2 * m + 3) (h2 : x.cols = 2 * n + 3) :
    (x.strided (1 + 1) (1 + 2 * m - 1 + 1) 2 (1 + 1) (1 + 2 * n - 1 + 1) 2).rows = m ∧
    (x.strided (1 + 1) (1 + 2 * m - 1 + 1) 2 (1 + 1) (1 + 2 * n - 1 + 1) 2).cols = n := by
  simp only [Mat.strided, sliceLen]; omega

theorem stridedG_shape (x : Mat F) (m n : Nat) (h1 : x.rows = 2 * m + 3) (h2 : x.cols = 2 * n + 3) :
    (x.strided 1 (1 + 2 * m + 1) 2 1 (1 + 2 * n + 1) 2).rows = m + 1 ∧
    (x.strided 1 (1 + 2 * m + 1) 2 1 (1 + 2 * n + 1) 2).cols = n + 1 := by
  simp only [Mat.strided, sliceLen]; omega

/-- The intermediate arrays of `tomitgrid`. -/
theorem tomitgrid_pre [ZeroLaw F] (geod : Geod F) (xg yg : Mat F) (m n : Nat)
    (h1 : xg.rows = 2 * m + 3) (h2 : xg.cols = 2 * n + 3)
    (h3 : yg.rows = 2 * m + 3) (h4 : yg.cols = 2 * n + 3) :
    ∃ ex ey u ar, edges geod xg yg 1 (1 + 2 * m) 1 (1 + 2 * n) = .ok (ex, ey) ∧
      areas geod (xg.strided 1 (1 + 2 * m + 1) 1 1 (1 + 2 * n + 1) 1)
        (yg.strided 1 (1 + 2 * m + 1) 1 1 (1 + 2 * n + 1) 1) ex ey = .ok u ∧
      (Mat.full (1 + 2 * m + 1 - 0) (1 + 2 * n + 1 - 0) (Arith.zero : F)).setBlock
        1 (1 + 2 * m) 1 (1 + 2 * n) u = .ok ar ∧
      (ex.rows = 2 * m + 2 ∧ ex.cols = 2 * n + 3) ∧ (ey.rows = 2 * m + 3 ∧ ey.cols = 2 * n + 2) ∧
      (ar.rows = 2 * m + 2 ∧ ar.cols = 2 * n + 2) ∧
      (∀ i j : Nat, ex.get i j = (tileOf xg yg m n).subX geod.inv ((i : Int) - 1) ((j : Int) - 1)) ∧
      (∀ i j : Nat, ey.get i j = (tileOf xg yg m n).subY geod.inv ((i : Int) - 1) ((j : Int) - 1)) ∧
      (∀ i j : Nat, ar.get i j = (tileOf xg yg m n).subA
        (quadOf geod ((tileOf xg yg m n).usePlanar geod.inv)) ((i : Int) - 1) ((j : Int) - 1)) := by
  obtain ⟨ex, ey, he, x1, x2, y1, y2, vx, vy⟩ := edges_spec geod xg yg 1 (1 + 2 * m) 1 (1 + 2 * n)
    (by omega) (by omega) (by omega) (by omega)
  have vx' : ∀ i j : Nat, ex.get i j = (tileOf xg yg m n).subX geod.inv ((i : Int) - 1) ((j : Int) - 1) := by
    intro i j
    rw [vx]
    unfold exVal Spec.Tile.subX tileOf
    simp only
    by_cases h : 1 ≤ i ∧ i < 1 + 2 * m ∧ 1 ≤ j ∧ j < 1 + 2 * n + 1
    · rw [if_pos h, if_pos (by omega)]
      have e1 : ((i : Int) - 1 + 1).toNat = i := by omega
      have e2 : ((j : Int) - 1 + 1).toNat = j := by omega
      have e3 : ((i : Int) - 1 + 1 + 1).toNat = i + 1 := by omega
      simp only [e1, e2, e3, pt]
    · rw [if_neg h, if_neg (by omega)]
  have vy' : ∀ i j : Nat, ey.get i j = (tileOf xg yg m n).subY geod.inv ((i : Int) - 1) ((j : Int) - 1) := by
    intro i j
    rw [vy]
    unfold eyVal Spec.Tile.subY tileOf
    simp only
    by_cases h : 1 ≤ i ∧ i < 1 + 2 * m + 1 ∧ 1 ≤ j ∧ j < 1 + 2 * n
    · rw [if_pos h, if_pos (by omega)]
      have e1 : ((i : Int) - 1 + 1).toNat = i := by omega
      have e2 : ((j : Int) - 1 + 1).toNat = j := by omega
      have e3 : ((j : Int) - 1 + 1 + 1).toNat = j + 1 := by omega
      simp only [e1, e2, e3, pt]
    · rw [if_neg h, if_neg (by omega)]
  have nx : nonzeros ex = (tileOf xg yg m n).xLengths geod.inv := by
    rw [nonzeros_pad ex (2 * m) (2 * n + 1) (by omega) (by omega)]
    · unfold Spec.Tile.xLengths
      show List.filter _ _ = List.filter _ _
      congr 1
      apply flatMap_congr'
      intro a _
      apply List.map_congr_left
      intro b _
      rw [vx']; congr 1 <;> omega
    · intro i j hi hj h
      rw [vx]; unfold exVal; rw [if_neg (by omega)]
  have ny : nonzeros ey = (tileOf xg yg m n).yLengths geod.inv := by
    rw [nonzeros_pad ey (2 * m + 1) (2 * n) (by omega) (by omega)]
    · unfold Spec.Tile.yLengths
      show List.filter _ _ = List.filter _ _
      congr 1
      apply flatMap_congr'
      intro a _
      apply List.map_congr_left
      intro b _
      rw [vy']; congr 1 <;> omega
    · intro i j hi hj h
      rw [vy]; unfold eyVal; rw [if_neg (by omega)]
  have sr : sliceLen 1 (min (1 + 2 * m + 1) xg.rows) 1 = 2 * m + 1 := by
    rw [sliceLen_one]; omega
  have sc : sliceLen 1 (min (1 + 2 * n + 1) xg.cols) 1 = 2 * n + 1 := by
    rw [sliceLen_one]; omega
  have sr' : sliceLen 1 (min (1 + 2 * m + 1) yg.rows) 1 = 2 * m + 1 := by
    rw [sliceLen_one]; omega
  have sc' : sliceLen 1 (min (1 + 2 * n + 1) yg.cols) 1 = 2 * n + 1 := by
    rw [sliceLen_one]; omega
  obtain ⟨u, hu, u1, u2, vu⟩ := areas_spec geod (xg.strided 1 (1 + 2 * m + 1) 1 1 (1 + 2 * n + 1) 1)
    (yg.strided 1 (1 + 2 * m + 1) 1 1 (1 + 2 * n + 1) 1) ex ey
    (by simp only [Mat.strided]; omega) (by simp only [Mat.strided]; omega)
    (by simp only [Mat.strided]; omega) (by simp only [Mat.strided]; omega)
  simp only [Mat.strided, sr, sc] at u1 u2 vu
  rw [nx, ny] at vu
  obtain ⟨ar, har, r1, r2, va⟩ : ∃ ar, (Mat.full (1 + 2 * m + 1 - 0) (1 + 2 * n + 1 - 0) (Arith.zero : F)).setBlock
      1 (1 + 2 * m) 1 (1 + 2 * n) u = .ok ar ∧ ar.rows = 2 * m + 2 ∧ ar.cols = 2 * n + 2 ∧
      ∀ i j : Nat, ar.get i j = (tileOf xg yg m n).subA
        (quadOf geod ((tileOf xg yg m n).usePlanar geod.inv)) ((i : Int) - 1) ((j : Int) - 1) := by
    refine ⟨_, if_pos ⟨by simp only [Mat.full]; omega, by simp only [Mat.full]; omega⟩,
      by simp only [Mat.full]; omega, by simp only [Mat.full]; omega, fun i j => ?_⟩
    unfold Spec.Tile.subA tileOf
    simp only [Mat.full]
    by_cases h : 1 ≤ i ∧ i < 1 + 2 * m ∧ 1 ≤ j ∧ j < 1 + 2 * n
    · rw [if_pos h, if_pos (by omega), vu _ _ (by omega) (by omega)]
      have e1 : ((i : Int) - 1 + 1).toNat = i := by omega
      have e2 : ((j : Int) - 1 + 1).toNat = j := by omega
      have e3 : ((i : Int) - 1 + 1 + 1).toNat = i + 1 := by omega
      have e4 : ((j : Int) - 1 + 1 + 1).toNat = j + 1 := by omega
      have e5 : 1 + (i - 1) * 1 = i := by omega
      have e6 : 1 + (j - 1) * 1 = j := by omega
      have e7 : 1 + (i - 1 + 1) * 1 = i + 1 := by omega
      have e8 : 1 + (j - 1 + 1) * 1 = j + 1 := by omega
      simp only [e1, e2, e3, e4, pt, e5, e6, e7, e8]
      rfl
    · rw [if_neg h, if_neg (by omega)]
  exact ⟨ex, ey, u, ar, he, hu, har, ⟨by omega, by omega⟩, ⟨by omega, by omega⟩, ⟨r1, r2⟩, vx', vy', va⟩

theorem fld_DXG (T : Spec.Tile F) (inv : F → F → F → F → F) (quad : F × F → F × F → F × F → F × F → F)
    (M : Mat F) (m n : Nat) (hr : M.rows = 2 * m + 2) (hc : M.cols = 2 * n + 3)
    (hv : ∀ i j : Nat, M.get i j = T.subX inv ((i : Int) - 1) ((j : Int) - 1)) :
    ∃ A, sumLoop m (n + 1) m (n + 1) (fun i j => sum2 (M.at' (1 + 2 * i) (1 + 2 * j)) (M.at' (1 + 2 * i + 1) (1 + 2 * j))) = .ok A ∧
      A.rows = Spec.nrows .DXG m ∧ A.cols = Spec.ncols .DXG n ∧
      ∀ i j, i < A.rows → j < A.cols → A.get i j = T.entry inv quad .DXG i j := by
  have hv' : ∀ (i j : Nat) (a b : Int), a = (i : Int) - 1 → b = (j : Int) - 1 →
      M.get i j = T.subX inv a b := by
    rintro i j _ _ rfl rfl; exact hv i j
  obtain ⟨A, f1, k1, l1, v1⟩ := sum2_loop M m (n + 1)
    (fun i _ => 1 + 2 * i) (fun _ j => 1 + 2 * j)
    (fun i _ => 1 + 2 * i + 1) (fun _ j => 1 + 2 * j)
    (by intro i j _ _; omega)
    (by intro i j _ _; omega)
  refine ⟨A, f1, k1, l1, fun i j hi hj => ?_⟩
  rw [v1 i j (by omega) (by omega),
    hv' _ _ ((2 * i + 1 : Int) - 1) (2 * j : Int) (by omega) (by omega),
    hv' _ _ (2 * i + 1 : Int) (2 * j : Int) (by omega) (by omega)]
  rfl

theorem fld_DYG (T : Spec.Tile F) (inv : F → F → F → F → F) (quad : F × F → F × F → F × F → F × F → F)
    (M : Mat F) (m n : Nat) (hr : M.rows = 2 * m + 3) (hc : M.cols = 2 * n + 2)
    (hv : ∀ i j : Nat, M.get i j = T.subY inv ((i : Int) - 1) ((j : Int) - 1)) :
    ∃ A, sumLoop (m + 1) n (m + 1) n (fun i j => sum2 (M.at' (1 + 2 * i) (1 + 2 * j)) (M.at' (1 + 2 * i) (1 + 2 * j + 1))) = .ok A ∧
      A.rows = Spec.nrows .DYG m ∧ A.cols = Spec.ncols .DYG n ∧
      ∀ i j, i < A.rows → j < A.cols → A.get i j = T.entry inv quad .DYG i j := by
  have hv' : ∀ (i j : Nat) (a b : Int), a = (i : Int) - 1 → b = (j : Int) - 1 →
      M.get i j = T.subY inv a b := by
    rintro i j _ _ rfl rfl; exact hv i j
  obtain ⟨A, f1, k1, l1, v1⟩ := sum2_loop M (m + 1) n
    (fun i _ => 1 + 2 * i) (fun _ j => 1 + 2 * j)
    (fun i _ => 1 + 2 * i) (fun _ j => 1 + 2 * j + 1)
    (by intro i j _ _; omega)
    (by intro i j _ _; omega)
  refine ⟨A, f1, k1, l1, fun i j hi hj => ?_⟩
  rw [v1 i j (by omega) (by omega),
    hv' _ _ (2 * i : Int) ((2 * j + 1 : Int) - 1) (by omega) (by omega),
    hv' _ _ (2 * i : Int) (2 * j + 1 : Int) (by omega) (by omega)]
  rfl

theorem fld_RAC (T : Spec.Tile F) (inv : F → F → F → F → F) (quad : F × F → F × F → F × F → F × F → F)
    (M : Mat F) (m n : Nat) (hr : M.rows = 2 * m + 2) (hc : M.cols = 2 * n + 2)
    (hv : ∀ i j : Nat, M.get i j = T.subA quad ((i : Int) - 1) ((j : Int) - 1)) :
    ∃ A, sumLoop m n m n (fun i j => sum4 (M.at' (1 + 2 * i) (1 + 2 * j)) (M.at' (1 + 2 * i + 1) (1 + 2 * j)) (M.at' (1 + 2 * i + 1) (1 + 2 * j + 1)) (M.at' (1 + 2 * i) (1 + 2 * j + 1))) = .ok A ∧
      A.rows = Spec.nrows .RAC m ∧ A.cols = Spec.ncols .RAC n ∧
      ∀ i j, i < A.rows → j < A.cols → A.get i j = T.entry inv quad .RAC i j := by
  have hv' : ∀ (i j : Nat) (a b : Int), a = (i : Int) - 1 → b = (j : Int) - 1 →
      M.get i j = T.subA quad a b := by
    rintro i j _ _ rfl rfl; exact hv i j
  obtain ⟨A, f1, k1, l1, v1⟩ := sum4_loop M m n
    (fun i _ => 1 + 2 * i) (fun _ j => 1 + 2 * j)
    (fun i _ => 1 + 2 * i + 1) (fun _ j => 1 + 2 * j)
    (fun i _ => 1 + 2 * i + 1) (fun _ j => 1 + 2 * j + 1)
    (fun i _ => 1 + 2 * i) (fun _ j => 1 + 2 * j + 1)
    (by intro i j _ _; omega)
    (by intro i j _ _; omega)
    (by intro i j _ _; omega)
    (by intro i j _ _; omega)
  refine ⟨A, f1, k1, l1, fun i j hi hj => ?_⟩
  rw [v1 i j (by omega) (by omega),
    hv' _ _ ((2 * i + 1 : Int) - 1) ((2 * j + 1 : Int) - 1) (by omega) (by omega),
    hv' _ _ (2 * i + 1 : Int) ((2 * j + 1 : Int) - 1) (by omega) (by omega),
    hv' _ _ (2 * i + 1 : Int) (2 * j + 1 : Int) (by omega) (by omega),
    hv' _ _ ((2 * i + 1 : Int) - 1) (2 * j + 1 : Int) (by omega) (by omega)]
  rfl

theorem fld_DXC (T : Spec.Tile F) (inv : F → F → F → F → F) (quad : F × F → F × F → F × F → F × F → F)
    (M : Mat F) (m n : Nat) (hr : M.rows = 2 * m + 2) (hc : M.cols = 2 * n + 3)
    (hv : ∀ i j : Nat, M.get i j = T.subX inv ((i : Int) - 1) ((j : Int) - 1)) :
    ∃ A, sumLoop (m + 1) n (m + 1) n (fun i j => sum2 (M.at' (2 * i) (1 + 2 * j + 1)) (M.at' (2 * i + 1) (1 + 2 * j + 1))) = .ok A ∧
      A.rows = Spec.nrows .DXC m ∧ A.cols = Spec.ncols .DXC n ∧
      ∀ i j, i < A.rows → j < A.cols → A.get i j = T.entry inv quad .DXC i j := by
  have hv' : ∀ (i j : Nat) (a b : Int), a = (i : Int) - 1 → b = (j : Int) - 1 →
      M.get i j = T.subX inv a b := by
    rintro i j _ _ rfl rfl; exact hv i j
  obtain ⟨A, f1, k1, l1, v1⟩ := sum2_loop M (m + 1) n
    (fun i _ => 2 * i) (fun _ j => 1 + 2 * j + 1)
    (fun i _ => 2 * i + 1) (fun _ j => 1 + 2 * j + 1)
    (by intro i j _ _; omega)
    (by intro i j _ _; omega)
  refine ⟨A, f1, k1, l1, fun i j hi hj => ?_⟩
  rw [v1 i j (by omega) (by omega),
    hv' _ _ ((2 * i : Int) - 1) (2 * j + 1 : Int) (by omega) (by omega),
    hv' _ _ (2 * i : Int) (2 * j + 1 : Int) (by omega) (by omega)]
  rfl

theorem fld_DYC (T : Spec.Tile F) (inv : F → F → F → F → F) (quad : F × F → F × F → F × F → F × F → F)
    (M : Mat F) (m n : Nat) (hr : M.rows = 2 * m + 3) (hc : M.cols = 2 * n + 2)
    (hv : ∀ i j : Nat, M.get i j = T.subY inv ((i : Int) - 1) ((j : Int) - 1)) :
    ∃ A, sumLoop m (n + 1) m (n + 1) (fun i j => sum2 (M.at' (1 + 2 * i + 1) (2 * j)) (M.at' (1 + 2 * i + 1) (2 * j + 1))) = .ok A ∧
      A.rows = Spec.nrows .DYC m ∧ A.cols = Spec.ncols .DYC n ∧
      ∀ i j, i < A.rows → j < A.cols → A.get i j = T.entry inv quad .DYC i j := by
  have hv' : ∀ (i j : Nat) (a b : Int), a = (i : Int) - 1 → b = (j : Int) - 1 →
      M.get i j = T.subY inv a b := by
    rintro i j _ _ rfl rfl; exact hv i j
  obtain ⟨A, f1, k1, l1, v1⟩ := sum2_loop M m (n + 1)
    (fun i _ => 1 + 2 * i + 1) (fun _ j => 2 * j)
    (fun i _ => 1 + 2 * i + 1) (fun _ j => 2 * j + 1)
    (by intro i j _ _; omega)
    (by intro i j _ _; omega)
  refine ⟨A, f1, k1, l1, fun i j hi hj => ?_⟩
  rw [v1 i j (by omega) (by omega),
    hv' _ _ (2 * i + 1 : Int) ((2 * j : Int) - 1) (by omega) (by omega),
    hv' _ _ (2 * i + 1 : Int) (2 * j : Int) (by omega) (by omega)]
  rfl

theorem fld_RAZ (T : Spec.Tile F) (inv : F → F → F → F → F) (quad : F × F → F × F → F × F → F × F → F)
    (M : Mat F) (m n : Nat) (hr : M.rows = 2 * m + 2) (hc : M.cols = 2 * n + 2)
    (hv : ∀ i j : Nat, M.get i j = T.subA quad ((i : Int) - 1) ((j : Int) - 1)) :
    ∃ A, sumLoop (m + 1) (n + 1) (m + 1) (n + 1) (fun i j => sum4 (M.at' (2 * i) (2 * j)) (M.at' (2 * i + 1) (2 * j)) (M.at' (2 * i + 1) (2 * j + 1)) (M.at' (2 * i) (2 * j + 1))) = .ok A ∧
      A.rows = Spec.nrows .RAZ m ∧ A.cols = Spec.ncols .RAZ n ∧
      ∀ i j, i < A.rows → j < A.cols → A.get i j = T.entry inv quad .RAZ i j := by
  have hv' : ∀ (i j : Nat) (a b : Int), a = (i : Int) - 1 → b = (j : Int) - 1 →
      M.get i j = T.subA quad a b := by
    rintro i j _ _ rfl rfl; exact hv i j
  obtain ⟨A, f1, k1, l1, v1⟩ := sum4_loop M (m + 1) (n + 1)
    (fun i _ => 2 * i) (fun _ j => 2 * j)
    (fun i _ => 2 * i + 1) (fun _ j => 2 * j)
    (fun i _ => 2 * i + 1) (fun _ j => 2 * j + 1)
    (fun i _ => 2 * i) (fun _ j => 2 * j + 1)
    (by intro i j _ _; omega)
    (by intro i j _ _; omega)
    (by intro i j _ _; omega)
    (by intro i j _ _; omega)
  refine ⟨A, f1, k1, l1, fun i j hi hj => ?_⟩
  rw [v1 i j (by omega) (by omega),
    hv' _ _ ((2 * i : Int) - 1) ((2 * j : Int) - 1) (by omega) (by omega),
    hv' _ _ (2 * i : Int) ((2 * j : Int) - 1) (by omega) (by omega),
    hv' _ _ (2 * i : Int) (2 * j : Int) (by omega) (by omega),
    hv' _ _ ((2 * i : Int) - 1) (2 * j : Int) (by omega) (by omega)]
  rfl

theorem fld_DXV (T : Spec.Tile F) (inv : F → F → F → F → F) (quad : F × F → F × F → F × F → F × F → F)
    (M : Mat F) (m n : Nat) (hr : M.rows = 2 * m + 2) (hc : M.cols = 2 * n + 3)
    (hv : ∀ i j : Nat, M.get i j = T.subX inv ((i : Int) - 1) ((j : Int) - 1)) :
    ∃ A, sumLoop (m + 1) (n + 1) (m + 1) (n + 1) (fun i j => sum2 (M.at' (2 * i) (1 + 2 * j)) (M.at' (2 * i + 1) (1 + 2 * j))) = .ok A ∧
      A.rows = Spec.nrows .DXV m ∧ A.cols = Spec.ncols .DXV n ∧
      ∀ i j, i < A.rows → j < A.cols → A.get i j = T.entry inv quad .DXV i j := by
  have hv' : ∀ (i j : Nat) (a b : Int), a = (i : Int) - 1 → b = (j : Int) - 1 →
      M.get i j = T.subX inv a b := by
    rintro i j _ _ rfl rfl; exact hv i j
  obtain ⟨A, f1, k1, l1, v1⟩ := sum2_loop M (m + 1) (n + 1)
    (fun i _ => 2 * i) (fun _ j => 1 + 2 * j)
    (fun i _ => 2 * i + 1) (fun _ j => 1 + 2 * j)
    (by intro i j _ _; omega)
    (by intro i j _ _; omega)
  refine ⟨A, f1, k1, l1, fun i j hi hj => ?_⟩
  rw [v1 i j (by omega) (by omega),
    hv' _ _ ((2 * i : Int) - 1) (2 * j : Int) (by omega) (by omega),
    hv' _ _ (2 * i : Int) (2 * j : Int) (by omega) (by omega)]
  rfl

theorem fld_DYF (T : Spec.Tile F) (inv : F → F → F → F → F) (quad : F × F → F × F → F × F → F × F → F)
    (M : Mat F) (m n : Nat) (hr : M.rows = 2 * m + 3) (hc : M.cols = 2 * n + 2)
    (hv : ∀ i j : Nat, M.get i j = T.subY inv ((i : Int) - 1) ((j : Int) - 1)) :
    ∃ A, sumLoop m n m n (fun i j => sum2 (M.at' (1 + 2 * i + 1) (1 + 2 * j)) (M.at' (1 + 2 * i + 1) (1 + 2 * j + 1))) = .ok A ∧
      A.rows = Spec.nrows .DYF m ∧ A.cols = Spec.ncols .DYF n ∧
      ∀ i j, i < A.rows → j < A.cols → A.get i j = T.entry inv quad .DYF i j := by
  have hv' : ∀ (i j : Nat) (a b : Int), a = (i : Int) - 1 → b = (j : Int) - 1 →
      M.get i j = T.subY inv a b := by
    rintro i j _ _ rfl rfl; exact hv i j
  obtain ⟨A, f1, k1, l1, v1⟩ := sum2_loop M m n
    (fun i _ => 1 + 2 * i + 1) (fun _ j => 1 + 2 * j)
    (fun i _ => 1 + 2 * i + 1) (fun _ j => 1 + 2 * j + 1)
    (by intro i j _ _; omega)
    (by intro i j _ _; omega)
  refine ⟨A, f1, k1, l1, fun i j hi hj => ?_⟩
  rw [v1 i j (by omega) (by omega),
    hv' _ _ (2 * i + 1 : Int) ((2 * j + 1 : Int) - 1) (by omega) (by omega),
    hv' _ _ (2 * i + 1 : Int) (2 * j + 1 : Int) (by omega) (by omega)]
  rfl

theorem fld_RAW (T : Spec.Tile F) (inv : F → F → F → F → F) (quad : F × F → F × F → F × F → F × F → F)
    (M : Mat F) (m n : Nat) (hr : M.rows = 2 * m + 2) (hc : M.cols = 2 * n + 2)
    (hv : ∀ i j : Nat, M.get i j = T.subA quad ((i : Int) - 1) ((j : Int) - 1)) :
    ∃ A, sumLoop (m + 1) n (m + 1) n (fun i j => sum4 (M.at' (2 * i) (1 + 2 * j)) (M.at' (2 * i + 1) (1 + 2 * j)) (M.at' (2 * i + 1) (1 + 2 * j + 1)) (M.at' (2 * i) (1 + 2 * j + 1))) = .ok A ∧
      A.rows = Spec.nrows .RAW m ∧ A.cols = Spec.ncols .RAW n ∧
      ∀ i j, i < A.rows → j < A.cols → A.get i j = T.entry inv quad .RAW i j := by
  have hv' : ∀ (i j : Nat) (a b : Int), a = (i : Int) - 1 → b = (j : Int) - 1 →
      M.get i j = T.subA quad a b := by
    rintro i j _ _ rfl rfl; exact hv i j
  obtain ⟨A, f1, k1, l1, v1⟩ := sum4_loop M (m + 1) n
    (fun i _ => 2 * i) (fun _ j => 1 + 2 * j)
    (fun i _ => 2 * i + 1) (fun _ j => 1 + 2 * j)
    (fun i _ => 2 * i + 1) (fun _ j => 1 + 2 * j + 1)
    (fun i _ => 2 * i) (fun _ j => 1 + 2 * j + 1)
    (by intro i j _ _; omega)
    (by intro i j _ _; omega)
    (by intro i j _ _; omega)
    (by intro i j _ _; omega)
  refine ⟨A, f1, k1, l1, fun i j hi hj => ?_⟩
  rw [v1 i j (by omega) (by omega),
    hv' _ _ ((2 * i : Int) - 1) ((2 * j + 1 : Int) - 1) (by omega) (by omega),
    hv' _ _ (2 * i : Int) ((2 * j + 1 : Int) - 1) (by omega) (by omega),
    hv' _ _ (2 * i : Int) (2 * j + 1 : Int) (by omega) (by omega),
    hv' _ _ ((2 * i : Int) - 1) (2 * j + 1 : Int) (by omega) (by omega)]
  rfl

theorem fld_DXF (T : Spec.Tile F) (inv : F → F → F → F → F) (quad : F × F → F × F → F × F → F × F → F)
    (M : Mat F) (m n : Nat) (hr : M.rows = 2 * m + 2) (hc : M.cols = 2 * n + 3)
    (hv : ∀ i j : Nat, M.get i j = T.subX inv ((i : Int) - 1) ((j : Int) - 1)) :
    ∃ A, sumLoop m n m n (fun i j => sum2 (M.at' (1 + 2 * i) (1 + 2 * j + 1)) (M.at' (1 + 2 * i + 1) (1 + 2 * j + 1))) = .ok A ∧
      A.rows = Spec.nrows .DXF m ∧ A.cols = Spec.ncols .DXF n ∧
      ∀ i j, i < A.rows → j < A.cols → A.get i j = T.entry inv quad .DXF i j := by
  have hv' : ∀ (i j : Nat) (a b : Int), a = (i : Int) - 1 → b = (j : Int) - 1 →
      M.get i j = T.subX inv a b := by
    rintro i j _ _ rfl rfl; exact hv i j
  obtain ⟨A, f1, k1, l1, v1⟩ := sum2_loop M m n
    (fun i _ => 1 + 2 * i) (fun _ j => 1 + 2 * j + 1)
    (fun i _ => 1 + 2 * i + 1) (fun _ j => 1 + 2 * j + 1)
    (by intro i j _ _; omega)
    (by intro i j _ _; omega)
  refine ⟨A, f1, k1, l1, fun i j hi hj => ?_⟩
  rw [v1 i j (by omega) (by omega),
    hv' _ _ ((2 * i + 1 : Int) - 1) (2 * j + 1 : Int) (by omega) (by omega),
    hv' _ _ (2 * i + 1 : Int) (2 * j + 1 : Int) (by omega) (by omega)]
  rfl

theorem fld_DYU (T : Spec.Tile F) (inv : F → F → F → F → F) (quad : F × F → F × F → F × F → F × F → F)
    (M : Mat F) (m n : Nat) (hr : M.rows = 2 * m + 3) (hc : M.cols = 2 * n + 2)
    (hv : ∀ i j : Nat, M.get i j = T.subY inv ((i : Int) - 1) ((j : Int) - 1)) :
    ∃ A, sumLoop (m + 1) (n + 1) (m + 1) (n + 1) (fun i j => sum2 (M.at' (1 + 2 * i) (2 * j)) (M.at' (1 + 2 * i) (2 * j + 1))) = .ok A ∧
      A.rows = Spec.nrows .DYU m ∧ A.cols = Spec.ncols .DYU n ∧
      ∀ i j, i < A.rows → j < A.cols → A.get i j = T.entry inv quad .DYU i j := by
  have hv' : ∀ (i j : Nat) (a b : Int), a = (i : Int) - 1 → b = (j : Int) - 1 →
      M.get i j = T.subY inv a b := by
    rintro i j _ _ rfl rfl; exact hv i j
  obtain ⟨A, f1, k1, l1, v1⟩ := sum2_loop M (m + 1) (n + 1)
    (fun i _ => 1 + 2 * i) (fun _ j => 2 * j)
    (fun i _ => 1 + 2 * i) (fun _ j => 2 * j + 1)
    (by intro i j _ _; omega)
    (by intro i j _ _; omega)
  refine ⟨A, f1, k1, l1, fun i j hi hj => ?_⟩
  rw [v1 i j (by omega) (by omega),
    hv' _ _ (2 * i : Int) ((2 * j : Int) - 1) (by omega) (by omega),
    hv' _ _ (2 * i : Int) (2 * j : Int) (by omega) (by omega)]
  rfl

theorem fld_RAS (T : Spec.Tile F) (inv : F → F → F → F → F) (quad : F × F → F × F → F × F → F × F → F)
    (M : Mat F) (m n : Nat) (hr : M.rows = 2 * m + 2) (hc : M.cols = 2 * n + 2)
    (hv : ∀ i j : Nat, M.get i j = T.subA quad ((i : Int) - 1) ((j : Int) - 1)) :
    ∃ A, sumLoop m (n + 1) m (n + 1) (fun i j => sum4 (M.at' (1 + 2 * i) (2 * j)) (M.at' (1 + 2 * i + 1) (2 * j)) (M.at' (1 + 2 * i + 1) (2 * j + 1)) (M.at' (1 + 2 * i) (2 * j + 1))) = .ok A ∧
      A.rows = Spec.nrows .RAS m ∧ A.cols = Spec.ncols .RAS n ∧
      ∀ i j, i < A.rows → j < A.cols → A.get i j = T.entry inv quad .RAS i j := by
  have hv' : ∀ (i j : Nat) (a b : Int), a = (i : Int) - 1 → b = (j : Int) - 1 →
      M.get i j = T.subA quad a b := by
    rintro i j _ _ rfl rfl; exact hv i j
  obtain ⟨A, f1, k1, l1, v1⟩ := sum4_loop M m (n + 1)
    (fun i _ => 1 + 2 * i) (fun _ j => 2 * j)
    (fun i _ => 1 + 2 * i + 1) (fun _ j => 2 * j)
    (fun i _ => 1 + 2 * i + 1) (fun _ j => 2 * j + 1)
    (fun i _ => 1 + 2 * i) (fun _ j => 2 * j + 1)
    (by intro i j _ _; omega)
    (by intro i j _ _; omega)
    (by intro i j _ _; omega)
    (by intro i j _ _; omega)
  refine ⟨A, f1, k1, l1, fun i j hi hj => ?_⟩
  rw [v1 i j (by omega) (by omega),
    hv' _ _ ((2 * i + 1 : Int) - 1) ((2 * j : Int) - 1) (by omega) (by omega),
    hv' _ _ (2 * i + 1 : Int) ((2 * j : Int) - 1) (by omega) (by omega),
    hv' _ _ (2 * i + 1 : Int) (2 * j : Int) (by omega) (by omega),
    hv' _ _ ((2 * i + 1 : Int) - 1) (2 * j : Int) (by omega) (by omega)]
  rfl

theorem tomitgrid_spec [ZeroLaw F] (geod : Geod F) (xg yg : Mat F) (m n : Nat)
    (h1 : xg.rows = 2 * m + 3) (h2 : xg.cols = 2 * n + 3)
    (h3 : yg.rows = 2 * m + 3) (h4 : yg.cols = 2 * n + 3) :
    ∃ g, tomitgrid geod xg yg 0 1 (1 + 2 * m) (1 + 2 * m + 1) 0 1 (1 + 2 * n) (1 + 2 * n + 1) = .ok g ∧
      ∀ f, ∃ M, g f = .arr M ∧ M.rows = Spec.nrows f m ∧ M.cols = Spec.ncols f n ∧
        ∀ i j, i < M.rows → j < M.cols → M.get i j =
          (tileOf xg yg m n).entry geod.inv
            (quadOf geod ((tileOf xg yg m n).usePlanar geod.inv)) f i j := by
  obtain ⟨ex, ey, u, ar, he, hu, har, ⟨x1, x2⟩, ⟨y1, y2⟩, ⟨r1, r2⟩, vx, vy, va⟩ :=
    tomitgrid_pre geod xg yg m n h1 h2 h3 h4
  have d1 : (1 + 2 * m - 1) / 2 = m := by omega
  have d2 : (1 + 2 * n - 1) / 2 = n := by omega
  obtain ⟨dxg, edxg, qdxg⟩ := fld_DXG (tileOf xg yg m n) geod.inv
    (quadOf geod ((tileOf xg yg m n).usePlanar geod.inv)) ex m n x1 x2 vx
  obtain ⟨dyg, edyg, qdyg⟩ := fld_DYG (tileOf xg yg m n) geod.inv
    (quadOf geod ((tileOf xg yg m n).usePlanar geod.inv)) ey m n y1 y2 vy
  obtain ⟨rac, erac, qrac⟩ := fld_RAC (tileOf xg yg m n) geod.inv
    (quadOf geod ((tileOf xg yg m n).usePlanar geod.inv)) ar m n r1 r2 va
  obtain ⟨dxc, edxc, qdxc⟩ := fld_DXC (tileOf xg yg m n) geod.inv
    (quadOf geod ((tileOf xg yg m n).usePlanar geod.inv)) ex m n x1 x2 vx
  obtain ⟨dyc, edyc, qdyc⟩ := fld_DYC (tileOf xg yg m n) geod.inv
    (quadOf geod ((tileOf xg yg m n).usePlanar geod.inv)) ey m n y1 y2 vy
  obtain ⟨raz, eraz, qraz⟩ := fld_RAZ (tileOf xg yg m n) geod.inv
    (quadOf geod ((tileOf xg yg m n).usePlanar geod.inv)) ar m n r1 r2 va
  obtain ⟨dxv, edxv, qdxv⟩ := fld_DXV (tileOf xg yg m n) geod.inv
    (quadOf geod ((tileOf xg yg m n).usePlanar geod.inv)) ex m n x1 x2 vx
  obtain ⟨dyf, edyf, qdyf⟩ := fld_DYF (tileOf xg yg m n) geod.inv
    (quadOf geod ((tileOf xg yg m n).usePlanar geod.inv)) ey m n y1 y2 vy
  obtain ⟨raw, eraw, qraw⟩ := fld_RAW (tileOf xg yg m n) geod.inv
    (quadOf geod ((tileOf xg yg m n).usePlanar geod.inv)) ar m n r1 r2 va
  obtain ⟨dxf, edxf, qdxf⟩ := fld_DXF (tileOf xg yg m n) geod.inv
    (quadOf geod ((tileOf xg yg m n).usePlanar geod.inv)) ex m n x1 x2 vx
  obtain ⟨dyu, edyu, qdyu⟩ := fld_DYU (tileOf xg yg m n) geod.inv
    (quadOf geod ((tileOf xg yg m n).usePlanar geod.inv)) ey m n y1 y2 vy
  obtain ⟨ras, eras, qras⟩ := fld_RAS (tileOf xg yg m n) geod.inv
    (quadOf geod ((tileOf xg yg m n).usePlanar geod.inv)) ar m n r1 r2 va
  refine ⟨fun f => .arr (match f with
    | .XC => xg.strided (1 + 1) (1 + 2 * m - 1 + 1) 2 (1 + 1) (1 + 2 * n - 1 + 1) 2
    | .YC => yg.strided (1 + 1) (1 + 2 * m - 1 + 1) 2 (1 + 1) (1 + 2 * n - 1 + 1) 2
    | .XG => xg.strided 1 (1 + 2 * m + 1) 2 1 (1 + 2 * n + 1) 2
    | .YG => yg.strided 1 (1 + 2 * m + 1) 2 1 (1 + 2 * n + 1) 2
    | .DXG => dxg | .DYG => dyg | .RAC => rac | .DXC => dxc | .DYC => dyc | .RAZ => raz
    | .DXV => dxv | .DYF => dyf | .RAW => raw | .DXF => dxf | .DYU => dyu | .RAS => ras), ?_, ?_⟩
  · unfold tomitgrid
    simp only [d1, d2]
    rw [he, Py.ok_bind]; dsimp only
    rw [hu, Py.ok_bind, har, Py.ok_bind, edxg, Py.ok_bind, edyg, Py.ok_bind, erac, Py.ok_bind, edxc, Py.ok_bind, edyc, Py.ok_bind, eraz, Py.ok_bind, edxv, Py.ok_bind, edyf, Py.ok_bind, eraw, Py.ok_bind, edxf, Py.ok_bind, edyu, Py.ok_bind, eras, Py.ok_bind]
    rfl
  · intro f
    cases f with
    | XC =>
      refine ⟨_, rfl, (stridedC_shape xg m n h1 h2).1, (stridedC_shape xg m n h1 h2).2, fun i j hi hj => ?_⟩
      show xg.get _ _ = xg.get _ _
      congr 1
      · show _ = ((2 * i + 1 : Int) + 1).toNat; omega
      · show _ = ((2 * j + 1 : Int) + 1).toNat; omega
    | YC =>
      refine ⟨_, rfl, (stridedC_shape yg m n h3 h4).1, (stridedC_shape yg m n h3 h4).2, fun i j hi hj => ?_⟩
      show yg.get _ _ = yg.get _ _
      congr 1
      · show _ = ((2 * i + 1 : Int) + 1).toNat; omega
      · show _ = ((2 * j + 1 : Int) + 1).toNat; omega
    | XG =>
      refine ⟨_, rfl, (stridedG_shape xg m n h1 h2).1, (stridedG_shape xg m n h1 h2).2, fun i j hi hj => ?_⟩
      show xg.get _ _ = xg.get _ _
      congr 1
      · show _ = ((2 * i : Int) + 1).toNat; omega
      · show _ = ((2 * j : Int) + 1).toNat; omega
    | YG =>
      refine ⟨_, rfl, (stridedG_shape yg m n h3 h4).1, (stridedG_shape yg m n h3 h4).2, fun i j hi hj => ?_⟩
      show yg.get _ _ = yg.get _ _
      congr 1
      · show _ = ((2 * i : Int) + 1).toNat; omega
      · show _ = ((2 * j : Int) + 1).toNat; omega
    | DXG => exact ⟨_, rfl, qdxg⟩
    | DYG => exact ⟨_, rfl, qdyg⟩
    | RAC => exact ⟨_, rfl, qrac⟩
    | DXC => exact ⟨_, rfl, qdxc⟩
    | DYC => exact ⟨_, rfl, qdyc⟩
    | RAZ => exact ⟨_, rfl, qraz⟩
    | DXV => exact ⟨_, rfl, qdxv⟩
    | DYF => exact ⟨_, rfl, qdyf⟩
    | RAW => exact ⟨_, rfl, qraw⟩
    | DXF => exact ⟨_, rfl, qdxf⟩
    | DYU => exact ⟨_, rfl, qdyu⟩
    | RAS => exact ⟨_, rfl, qras⟩

end SG
