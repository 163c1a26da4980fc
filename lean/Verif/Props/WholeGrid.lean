import Verif.Props.RegridSource
import Verif.Lemmas.AddFringe
/-! # C24, C124: every entry of the 16 arrays of `mkgrid` and `regrid`

C17-C23 say what the parts of `computegrid.py` do.  Here they are put together: the arrays as a function of the given points, of `Geod` and of nothing else. -/

set_option linter.unusedSectionVars false
namespace SG
variable {F : Type} [PyFloat F]

namespace Spec

/-- Point number `k` on the way from `A` to `B` in `N` equal parts.  In a grid with longitudes from 0 to 360 (`east`), negative longitudes get 360 added. -/
def onArc (geod : Geod F) (east : Bool) (N : Nat) (A B : F × F) (k : Nat) : F × F :=
  if k = 0 then A
  else
    let p := geod.npt A.1 A.2 B.1 B.2 (N - 1) (k - 1)
    (if east && PyFloat.lt p.1 Arith.zero then p.1 +ₚ PyFloat.c360 else p.1, p.2)

/-- The point `(a,b)`, counted in half cells, of a mesh of points `G` every cell of which is divided into `ls` by `lt` cells: the two sides of the mesh cell
that run in x are divided first, then the arc between their points. -/
def refined (geod : Geod F) (east : Bool) (ls lt : Nat) (G : Nat → Nat → F × F) (a b : Nat) : F × F :=
  let x := a / (2 * ls)
  let y := b / (2 * lt)
  let side := fun y => onArc geod east (2 * ls) (G x y) (G (x + 1) y) (a % (2 * ls))
  onArc geod east (2 * lt) (side y) (side (y + 1)) (b % (2 * lt))

/-- The tile of these points, for a mesh of `p` by `q` cells. -/
def refinedTile (geod : Geod F) (east : Bool) (ls lt p q : Nat) (G : Nat → Nat → F × F) : Tile F :=
  ⟨p * ls, q * lt, fun a b => refined geod east ls lt G a.toNat b.toNat⟩

/-- The 16 arrays of `g` are those of this tile, where longitudes are taken from 0 to 360 if no given one is negative. -/
def RefinedGrid (geod : Geod F) (ls lt p q : Nat) (G : Nat → Nat → F × F) (g : Grid F) : Prop :=
  ∃ east : Bool, (east = true ↔ ∀ x y, x ≤ p → y ≤ q → PyFloat.lt (G x y).1 Arith.zero = false) ∧
    ∀ f, ∃ M, g f = .arr M ∧ M.rows = nrows f (p * ls) ∧ M.cols = ncols f (q * lt) ∧
      ∀ i j, i < nrows f (p * ls) → j < ncols f (q * lt) →
        M.get i j = (refinedTile geod east ls lt p q G).entry geod.inv
          (quad geod ((refinedTile geod east ls lt p q G).usePlanar geod.inv)) f i j

end Spec

theorem isSub_arc (geod : Geod F) (W : Mat F) (east : Bool) (he : east = true ↔ Spec.NonNeg W) (N k : Nat) (A B out : F × F)
    (h : Spec.IsSub geod W (N - 1) k A B out) : out = Spec.onArc geod east N A B (k + 1) := by
  obtain ⟨⟨h1, h2⟩, h3⟩ := h
  unfold Spec.onArc
  rw [if_neg (by omega)]
  refine Prod.ext ?_ h3
  show out.1 = if _ then _ else _
  cases east with
  | true => rw [h1 (he.1 rfl)]; rfl
  | false =>
    rw [h2 (fun hn => by cases he.2 hn)]
    rfl

/-- `fill` and `tomitgrid` on a compute grid that holds the points of a mesh and zeros. -/
theorem refined_grid [ZeroLaw F] [FloatOrder F] (geod : Geod F) (s0 s : Mat F × Mat F) (p q ls lt : Nat) (G : Nat → Nat → F × F) (g : Grid F)
    (hwin : Spec.FillWindow s0.1 s0.2 1 (1 + p * (2 * ls)) 1 (1 + q * (2 * lt)) ls lt)
    (hnodes : ∀ i j, i ≤ p → j ≤ q → Spec.at s0 (1 + i * (2 * ls)) (1 + j * (2 * lt)) = G i j)
    (hzero : ∀ r c, Spec.at s0 r c = (Arith.zero, Arith.zero) ∨ ∃ i j, i ≤ p ∧ j ≤ q ∧ r = 1 + i * (2 * ls) ∧ c = 1 + j * (2 * lt))
    (hf : fill geod s0.1 s0.2 1 (1 + p * (2 * ls)) 1 (1 + q * (2 * lt)) ls lt = .ok s)
    (hring : Spec.Ringed s.1 s.2 (p * ls) (q * lt)) (hg : tomitgridRing geod s.1 s.2 (p * ls) (q * lt) = .ok g) :
    Spec.RefinedGrid geod ls lt p q G g := by
  have hls := hwin.hls
  have hlt := hwin.hlt
  have hns : Spec.NonNeg s0.1 ↔ ∀ x y, x ≤ p → y ≤ q → PyFloat.lt (G x y).1 Arith.zero = false := by
    constructor
    · intro h x y hx hy
      rw [← hnodes x y hx hy]
      have l1 : x * (2 * ls) ≤ p * (2 * ls) := Nat.mul_le_mul_right _ hx
      have l2 : y * (2 * lt) ≤ q * (2 * lt) := Nat.mul_le_mul_right _ hy
      have := hwin.hiub
      have := hwin.hjub
      exact h _ _ (by omega) (by omega)
    · intro h r c _ _
      show PyFloat.lt (Spec.at s0 r c).1 Arith.zero = false
      rcases hzero r c with h0 | ⟨i, j, hi, hj, rfl, rfl⟩
      · rw [h0]; exact FloatOrder.irrefl _
      · rw [hnodes i j hi hj]; exact h i j hi hj
  have ht : ∃ east : Bool, east = true ↔ Spec.NonNeg s0.1 := ⟨wraps s0.1, wraps_iff s0.1⟩
  obtain ⟨east, he⟩ := ht
  refine ⟨east, he.trans hns, fun f => ?_⟩
  obtain ⟨s', hf', -, -, hnode⟩ := C17_fill_preserves geod _ _ _ _ _ _ _ _ hwin
  rw [hf] at hf'; cases hf'
  obtain ⟨s', hf', ex, ey⟩ := C18_fill_subdivides geod _ _ _ _ _ _ _ _ hwin
  rw [hf] at hf'; cases hf'
  obtain ⟨g', hg', hv⟩ := tomitgrid_spec geod s.1 s.2 _ _ hring.1 hring.2 hring.3 hring.4
  change tomitgridRing geod s.1 s.2 _ _ = _ at hg'
  rw [hg] at hg'; cases hg'
  -- the points
  have nd : ∀ x y, x ≤ p → y ≤ q → Spec.at s (1 + x * (2 * ls)) (1 + y * (2 * lt)) = G x y := fun x y hx hy =>
    (hnode x y).trans (hnodes x y hx hy)
  have col : ∀ a y, a ≤ p * (2 * ls) → y ≤ q → Spec.at s (1 + a) (1 + y * (2 * lt)) =
      Spec.onArc geod east (2 * ls) (G (a / (2 * ls)) y) (G (a / (2 * ls) + 1) y) (a % (2 * ls)) := by
    intro a y ha hy
    have dm := Nat.div_add_mod a (2 * ls)
    have ml := Nat.mod_lt a (show 2 * ls > 0 by omega)
    have l2 : y * (2 * lt) ≤ q * (2 * lt) := Nat.mul_le_mul_right _ hy
    rw [Nat.mul_comm] at dm
    by_cases h0 : a % (2 * ls) = 0
    · rw [h0]
      have xp : a / (2 * ls) ≤ p := by
        have := Nat.div_le_div_right (c := 2 * ls) ha
        rwa [Nat.mul_div_cancel _ (by omega)] at this
      rw [show 1 + a = 1 + a / (2 * ls) * (2 * ls) by omega, nd _ y xp hy]
      rfl
    · have xp : a / (2 * ls) < p := by
        refine Nat.lt_of_not_le fun hc => ?_
        have := Nat.mul_le_mul_right (2 * ls) hc
        omega
      have l1 : (a / (2 * ls) + 1) * (2 * ls) ≤ p * (2 * ls) := Nat.mul_le_mul_right _ xp
      have := isSub_arc geod s0.1 east he (2 * ls) (a % (2 * ls) - 1) _ _ _
        (ex (a / (2 * ls)) y (a % (2 * ls) - 1) (by omega) (by omega) (by omega))
      have e1 : Spec.at (s0.1, s0.2) (1 + a / (2 * ls) * (2 * ls)) (1 + y * (2 * lt)) = G (a / (2 * ls)) y := hnodes _ _ (Nat.le_of_lt xp) hy
      have e2 : Spec.at (s0.1, s0.2) (1 + (a / (2 * ls) + 1) * (2 * ls)) (1 + y * (2 * lt)) = G (a / (2 * ls) + 1) y := hnodes _ _ xp hy
      rw [e1, e2] at this
      rw [show 1 + a / (2 * ls) * (2 * ls) + (a % (2 * ls) - 1 + 1) = 1 + a by omega, show a % (2 * ls) - 1 + 1 = a % (2 * ls) by omega] at this
      exact this
  have pts : ∀ a b, a ≤ p * (2 * ls) → b ≤ q * (2 * lt) → Spec.at s (1 + a) (1 + b) = Spec.refined geod east ls lt G a b := by
    intro a b ha hb
    have dm := Nat.div_add_mod b (2 * lt)
    have ml := Nat.mod_lt b (show 2 * lt > 0 by omega)
    rw [Nat.mul_comm] at dm
    unfold Spec.refined
    dsimp only
    by_cases h0 : b % (2 * lt) = 0
    · rw [h0]
      have yq : b / (2 * lt) ≤ q := by
        have := Nat.div_le_div_right (c := 2 * lt) hb
        rwa [Nat.mul_div_cancel _ (by omega)] at this
      rw [show 1 + b = 1 + b / (2 * lt) * (2 * lt) by omega, col a _ ha yq]
      rfl
    · have yq : b / (2 * lt) < q := by
        refine Nat.lt_of_not_le fun hc => ?_
        have := Nat.mul_le_mul_right (2 * lt) hc
        omega
      have l1 : (b / (2 * lt) + 1) * (2 * lt) ≤ q * (2 * lt) := Nat.mul_le_mul_right _ yq
      have := isSub_arc geod s0.1 east he (2 * lt) (b % (2 * lt) - 1) _ _ _
        (ey (1 + a) (b / (2 * lt)) (b % (2 * lt) - 1) (by omega) (by omega) (by omega) (by omega))
      rw [col a _ ha (Nat.le_of_lt yq), col a _ ha yq] at this
      rw [show 1 + b / (2 * lt) * (2 * lt) + (b % (2 * lt) - 1 + 1) = 1 + b by omega, show b % (2 * lt) - 1 + 1 = b % (2 * lt) by omega] at this
      exact this
  have agree : TileAgree (tileOf s.1 s.2 (p * ls) (q * lt)) (Spec.refinedTile geod east ls lt p q G) := by
    refine ⟨rfl, rfl, fun a b ha ha' hb hb' => ?_⟩
    change a ≤ 2 * ((p * ls : Nat) : Int) at ha'
    change b ≤ 2 * ((q * lt : Nat) : Int) at hb'
    have e1 : p * (2 * ls) = 2 * (p * ls) := by rw [Nat.mul_left_comm]
    have e2 : q * (2 * lt) = 2 * (q * lt) := by rw [Nat.mul_left_comm]
    rw [show (Spec.refinedTile geod east ls lt p q G).P a b = Spec.refined geod east ls lt G a.toNat b.toNat from rfl,
      ← pts a.toNat b.toNat (by omega) (by omega)]
    show (s.1.get (a + 1).toNat (b + 1).toNat, s.2.get (a + 1).toNat (b + 1).toNat) = _
    rw [show (a + 1).toNat = 1 + a.toNat by omega, show (b + 1).toNat = 1 + b.toNat by omega]
    rfl
  obtain ⟨M, hM, v1, v2, v⟩ := hv f
  refine ⟨M, hM, v1, v2, fun i j hi hj => ?_⟩
  rw [v i j (by omega) (by omega), ← usePlanar_agree agree geod.inv]
  exact entry_agree agree _ _ f i j hi hj

/-- **C124** for `mkgrid`: the four corners of the box, divided into `lon_subscale` by `lat_subscale` cells. -/
theorem C124_mkgrid [ZeroLaw F] [FloatOrder F] (geod : Geod F) (lon1 lat1 lon2 lat2 : F) (m n : Nat) (hm : 1 ≤ m) (hn : 1 ≤ n) :
    ∃ g, mkgrid geod lon1 lat1 lon2 lat2 (m : Int) (n : Int) = .ok (g, (m : Int), (n : Int)) ∧
      Spec.RefinedGrid geod m n 1 1 (fun x y => (if x = 0 then lon1 else lon2, if y = 0 then lat2 else lat1)) g := by
  obtain ⟨s, g, hf, hr, hg, e⟩ := mkgrid_ok geod lon1 lat1 lon2 lat2 m n hm hn
  refine ⟨g, e, ?_⟩
  have w := mk_window lon1 lat1 lon2 lat2 m n hm hn
  have m0 : 1 + 2 * m ≠ 1 := by omega
  have n0 : 1 + 2 * n ≠ 1 := by omega
  refine refined_grid geod (mkX lon1 lon2 m n, mkY lat1 lat2 m n) s 1 1 m n _ g (by simpa using w) ?_ ?_ (by simpa using hf) (by simpa using hr)
    (by simpa using hg)
  · intro i j hi hj
    rcases (by omega : i = 0 ∨ i = 1) with rfl | rfl <;> rcases (by omega : j = 0 ∨ j = 1) with rfl | rfl <;>
      simp [Spec.at, mkX, mkY, Mat.set, Mat.full, show 2 * m ≠ 0 by omega, show 2 * n ≠ 0 by omega]
  · intro r c
    by_cases h : (r = 1 ∨ r = 1 + 2 * m) ∧ (c = 1 ∨ c = 1 + 2 * n)
    · right
      refine ⟨if r = 1 then 0 else 1, if c = 1 then 0 else 1, by split <;> omega, by split <;> omega, ?_, ?_⟩
      · split <;> omega
      · split <;> omega
    · left
      have h1 : ¬ (r = 1 ∧ c = 1) := by omega
      have h2 : ¬ (r = 1 ∧ c = 1 + 2 * n) := by omega
      have h3 : ¬ (r = 1 + 2 * m ∧ c = 1) := by omega
      have h4 : ¬ (r = 1 + 2 * m ∧ c = 1 + 2 * n) := by omega
      simp only [Spec.at, mkX, mkY, Mat.set, Mat.full, h1, h2, h3, h4, if_false]

/-- **C124** for `regrid`: the block between the points nearest to the corner points, in the source turned until it is the right way round. -/
theorem C124_regrid [F64 F] [ZeroLaw F] [FloatOrder F] (geod : Geod F) (fs : Files F) (fuel : Nat) (a : RegridArgs F)
    (d : MatDict F) (hsrc : readSource fs a = .ok d) (hw : d.xg.WF)
    (dict' : Option (MatDict F)) (g : Grid F) (ni nj : Int)
    (h : regrid geod fs fuel a = some (dict', .ok (g, ni, nj))) :
    ∃ (k i0 j0 p q ls lt : Nat) (d1 d2 : F), k ≤ 3 ∧ 0 < p ∧ 0 < q ∧ a.lonSub = ls ∧ a.latSub = lt ∧ ni = ((p * ls : Nat) : Int) ∧ nj = ((q * lt : Nat) : Int) ∧
      nearest geod a.lon1 a.lat1 (turns k (d.xg, d.yg)).1 (turns k (d.xg, d.yg)).2 = .ok (i0, (j0 + q : Nat), d1) ∧
      nearest geod a.lon2 a.lat2 (turns k (d.xg, d.yg)).1 (turns k (d.xg, d.yg)).2 = .ok ((i0 + p : Nat), j0, d2) ∧
      Spec.RefinedGrid geod ls lt p q
        (fun x y => ((turns k (d.xg, d.yg)).1.mat.get (i0 + x) (j0 + y), (turns k (d.xg, d.yg)).2.mat.get (i0 + x) (j0 + y))) g := by
  obtain ⟨k, c, c', ⟨hk, -, -, hal, -, -⟩, i0, j0, p, q, ls, lt, ⟨rfl, hp, hq, -, -, hls, hlt, -, -, hni, hnj⟩, s0, s, hwin, hnodes, hzero, hf,
    hring, hg⟩ := regrid_built geod fs fuel a d hsrc hw dict' g ni nj h
  obtain ⟨d1, d2, h1, h2⟩ := nearest_of_locate _ _ _ _ _ _ _ _ _ _ hal.2.2.1
  exact ⟨k, i0, j0, p, q, ls, lt, d1, d2, hk, hp, hq, hls, hlt, hni, hnj, h1, h2, refined_grid geod s0 s p q ls lt _ g hwin hnodes hzero hf hring hg⟩

/-! ## C24 -/

/-- The terms that need data beyond the tile are zero in every such grid. -/
theorem undefined_zero [ZeroLaw F] (geod : Geod F) (ls lt p q : Nat) (G : Nat → Nat → F × F) (g : Grid F) (h : Spec.RefinedGrid geod ls lt p q G g) (f : Field) :
    ∃ M, g f = .arr M ∧ ∀ i j, i < Spec.nrows f (p * ls) → j < Spec.ncols f (q * lt) → Spec.Undefined f (p * ls) (q * lt) i j → M.get i j = Arith.zero := by
  obtain ⟨east, -, hv⟩ := h
  obtain ⟨M, hM, -, -, v⟩ := hv f
  refine ⟨M, hM, fun i j hi hj hu => ?_⟩
  rw [v i j hi hj]
  exact entry_undefined (Spec.refinedTile geod east ls lt p q G) _ _ f i j hu

/-- **C24** for `mkgrid`. -/
theorem C24_mkgrid [ZeroLaw F] [FloatOrder F] (geod : Geod F) (lon1 lat1 lon2 lat2 : F) (lonSub latSub ni nj : Int) (g : Grid F)
    (h : mkgrid geod lon1 lat1 lon2 lat2 lonSub latSub = .ok (g, ni, nj)) (f : Field) :
    ∃ M, g f = .arr M ∧ ∀ i j, i < Spec.nrows f ni.toNat → j < Spec.ncols f nj.toNat → Spec.Undefined f ni.toNat nj.toNat i j → M.get i j = Arith.zero := by
  by_cases hs : lonSub ≤ 0 ∨ latSub ≤ 0
  · obtain ⟨e, he⟩ := C28_mkgrid_rejects geod lon1 lat1 lon2 lat2 lonSub latSub hs
    rw [he] at h; cases h
  · obtain ⟨m, rfl⟩ := Int.eq_ofNat_of_zero_le (show 0 ≤ lonSub by omega)
    obtain ⟨n, rfl⟩ := Int.eq_ofNat_of_zero_le (show 0 ≤ latSub by omega)
    obtain ⟨g', e, hr⟩ := C124_mkgrid geod lon1 lat1 lon2 lat2 m n (by omega) (by omega)
    rw [h] at e; cases e
    have := undefined_zero geod m n 1 1 _ g hr f
    rw [Nat.one_mul, Nat.one_mul] at this
    exact this

/-- **C24** for `regrid`. -/
theorem C24_regrid [F64 F] [ZeroLaw F] [FloatOrder F] (geod : Geod F) (fs : Files F) (fuel : Nat) (a : RegridArgs F)
    (d : MatDict F) (hsrc : readSource fs a = .ok d) (hw : d.xg.WF)
    (dict' : Option (MatDict F)) (g : Grid F) (ni nj : Int)
    (h : regrid geod fs fuel a = some (dict', .ok (g, ni, nj))) (f : Field) :
    ∃ M, g f = .arr M ∧ ∀ i j, i < Spec.nrows f ni.toNat → j < Spec.ncols f nj.toNat → Spec.Undefined f ni.toNat nj.toNat i j → M.get i j = Arith.zero := by
  obtain ⟨k, i0, j0, p, q, ls, lt, d1, d2, -, -, -, -, -, rfl, rfl, -, -, hr⟩ := C124_regrid geod fs fuel a d hsrc hw dict' g ni nj h
  exact undefined_zero geod ls lt p q _ g hr f

/-! ## Cases -/

/-- A box from (-10,20) to (50,10) in 2 by 1 cells: the mesh of its corners is refined with longitudes as `Geod` gives them (one of them is negative). -/
example : ∃ g, mkgrid Toy.geod (-10) 20 50 10 2 1 = .ok (g, 2, 1) ∧
    Spec.RefinedGrid Toy.geod 2 1 1 1 (fun x y => (if x = 0 then -10 else 50, if y = 0 then 10 else 20)) g :=
  C124_mkgrid Toy.geod (-10) 20 50 10 2 1 (by decide) (by decide)

/-- Points of the refined mesh of that box: a corner, a point on the southern side, the centre. -/
example : let G : Nat → Nat → Toy × Toy := fun x y => (if x = 0 then 10 else 50, if y = 0 then 10 else 20)
    Spec.refined Toy.geod true 2 1 G 0 0 = (10, 10) ∧ Spec.refined Toy.geod true 2 1 G 1 0 = (20, 10) ∧
    Spec.refined Toy.geod true 2 1 G 2 1 = (30, 15) ∧ Spec.refined Toy.geod true 2 1 G 4 2 = (50, 20) := by
  refine ⟨?_, ?_, ?_, ?_⟩ <;> decide

/-- A successful `regrid` of a 2 x 1 tile after two turns, each cell divided into 1 by 2: the hypotheses hold, so the result has the terms that need more data zero. -/
example : ∃ dict' g ni nj, regrid Toy.geod exFiles 4 (exArgs 20 0 0 10 1 2) = some (dict', .ok (g, ni, nj)) ∧
    readSource exFiles (exArgs 20 0 0 10 1 2) = .ok exDict ∧ exDict.xg.WF ∧
    ∃ M, g .DXV = .arr M ∧ M.get 0 0 = Arith.zero := by
  have h : okCounts (regrid Toy.geod exFiles 4 (exArgs 20 0 0 10 1 2)) = some (2, 2) := by
    set_option maxRecDepth 40000 in decide
  rcases e : regrid Toy.geod exFiles 4 (exArgs 20 0 0 10 1 2) with _ | ⟨dict', _ | ⟨g, ni, nj⟩⟩
  · rw [e] at h; cases h
  · rw [e] at h; cases h
  · rw [e] at h
    cases h
    refine ⟨_, _, _, _, rfl, rfl, NArr.ofC_wf _, ?_⟩
    obtain ⟨M, hM, hz⟩ := C24_regrid Toy.geod exFiles 4 _ exDict rfl (NArr.ofC_wf _) _ _ _ _ e .DXV
    exact ⟨M, hM, hz 0 0 (by decide) (by decide) (by simp [Spec.Undefined])⟩

end SG
