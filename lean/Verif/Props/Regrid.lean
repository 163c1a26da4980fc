import Verif.Lemmas.Regrid
/-! # C30–C37, C39: `regrid` -/

set_option linter.unusedSectionVars false

namespace SG
variable {F : Type} [PyFloat F]

/-! ## C30, C31: the rotation loop -/

/-- **C30**: if both corner points are located, in different rows and columns, the rotation loop stops after at
most three quarter turns (so with any bound larger than three on the number of loop tests), with the first corner at
smaller `i` and larger `j`; the final indices are those `nearest` gives on the turned arrays. -/
theorem C30_alignment_terminates (geod : Geod F) (lon1 lat1 lon2 lat2 : F) (s : NArr F × NArr F)
    (hw : s.1.WF) (i1 j1 i2 j2 : Nat) (d1 d2 : F)
    (h1 : nearest geod lon1 lat1 s.1 s.2 = .ok (i1, j1, d1))
    (h2 : nearest geod lon2 lat2 s.1 s.2 = .ok (i2, j2, d2)) (hi : i1 ≠ i2) (hj : j1 ≠ j2) :
    ∃ k, k ≤ 3 ∧ ∃ a b a' b' : Nat,
      (∀ fuel, k < fuel → align geod lon1 lat1 lon2 lat2 fuel s ((i1, j1), (i2, j2)) =
        some (turns k s, .ok ((a, b), (a', b')))) ∧
      (a < a' ∧ b' < b) ∧ (a' < (turns k s).1.mat.rows ∧ b < (turns k s).1.mat.cols) ∧
      nearest geod lon1 lat1 (turns k s).1 (turns k s).2 = .ok (a, b, d1) ∧
      nearest geod lon2 lat2 (turns k s).1 (turns k s).2 = .ok (a', b', d2) := by
  have hl : locate geod lon1 lat1 lon2 lat2 s = .ok ((i1, j1), (i2, j2)) := by
    unfold locate; rw [h1, h2]; rfl
  have r1 : InRange s.1.mat ((i1 : Int), (j1 : Int)) := by
    rcases nearest_range _ _ _ _ _ hw _ _ _ h1 with h | h
    · omega
    · exact h
  have r2 : InRange s.1.mat ((i2 : Int), (j2 : Int)) := by
    rcases nearest_range _ _ _ _ _ hw _ _ _ h2 with h | h
    · omega
    · exact h
  have hd : Diagonal s ((i1, j1), (i2, j2)) := ⟨r1, r2, by show (i1 : Int) ≠ i2; omega, by show (j1 : Int) ≠ j2; omega⟩
  obtain ⟨k, c', hk, ⟨hdg, ha, hl', hal⟩⟩ := align_terminates _ _ _ _ _ _ _ hw hl hd
  -- distances are unchanged by turning
  have dist : ∀ (k : Nat) (lon lat : F) (t : NArr F × NArr F) (i j : Int) (d : F), t.1.WF →
      nearest geod lon lat t.1 t.2 = .ok (i, j, d) →
      ∃ i' j', nearest geod lon lat (turns k t).1 (turns k t).2 = .ok (i', j', d) := by
    intro k lon lat
    induction k with
    | zero => intro t i j d _ h; exact ⟨i, j, h⟩
    | succ k ih =>
      intro t i j d hw h
      have := C11_rot90_equivariant geod lon lat t.1 t.2 hw
      rw [h] at this
      change nearest geod lon lat (turn t).1 (turn t).2 = .ok _ at this
      unfold Spec.rotIdx at this
      split at this
      · exact ih (turn t) _ _ _ (NArr.rot90_wf hw) this
      · exact ih (turn t) _ _ _ (NArr.rot90_wf hw) this
  obtain ⟨a1, b1, e1⟩ := dist k lon1 lat1 s _ _ _ hw h1
  obtain ⟨a2, b2, e2⟩ := dist k lon2 lat2 s _ _ _ hw h2
  have hc' : c' = ((a1, b1), (a2, b2)) := by
    unfold locate at hl'
    rw [e1, e2] at hl'
    exact (Except.ok.inj hl').symm
  subst hc'
  obtain ⟨n1, n2, -, -⟩ := hdg
  unfold InRange at n1 n2
  rw [aligned_iff] at ha
  dsimp only at n1 n2 ha
  obtain ⟨a1, rfl⟩ := Int.eq_ofNat_of_zero_le n1.1
  obtain ⟨b1, rfl⟩ := Int.eq_ofNat_of_zero_le n1.2.2.1
  obtain ⟨a2, rfl⟩ := Int.eq_ofNat_of_zero_le n2.1
  obtain ⟨b2, rfl⟩ := Int.eq_ofNat_of_zero_le n2.2.2.1
  refine ⟨k, hk, a1, b1, a2, b2, fun fuel hf => ?_, by omega, by omega, e1, e2⟩
  have := hal (fuel - k - 1)
  have e : k + (fuel - k - 1) + 1 = fuel := by omega
  rw [e] at this
  exact this

/-- Some grid point is at a distance below 1e10 m from the query point. -/
def Spec.Locatable (geod : Geod F) (lon lat : F) (s : NArr F × NArr F) : Prop :=
  ∃ i j, i < s.1.mat.rows ∧ j < s.1.mat.cols ∧
    PyFloat.lt (Spec.dist geod lon lat s.1.mat s.2.mat i j) PyFloat.c1e10 = true

theorem nearest_locatable [FloatOrder F] (geod : Geod F) (lon lat : F) (s : NArr F × NArr F) (hw : s.1.WF)
    (hs : Spec.SameShape s.1 s.2) :
    ∃ i j d, nearest geod lon lat s.1 s.2 = .ok (i, j, d) ∧
      (Spec.Locatable geod lon lat s → InRange s.1.mat (i, j)) ∧
      (¬ Spec.Locatable geod lon lat s → i = -1 ∧ j = -1) := by
  by_cases h : Spec.Locatable geod lon lat s
  · obtain ⟨i, j, d, e, hi, hj, -⟩ := C10_nearest_is_closest geod lon lat s.1 s.2 hs hw h
    exact ⟨i, j, d, e, fun _ => ⟨by simp, by simpa using hi, by simp, by simpa using hj⟩, fun hn => absurd h hn⟩
  · have := (C12_sentinel_iff geod lon lat s.1 s.2 hs hw).2 (by
      intro i j hi hj
      cases hb : PyFloat.lt (Spec.dist geod lon lat s.1.mat s.2.mat i j) PyFloat.c1e10 with
      | false => rfl
      | true => exact absurd ⟨i, j, hi, hj, hb⟩ h)
    exact ⟨-1, -1, _, this, fun hn => absurd hn h, fun _ => ⟨rfl, rfl⟩⟩

theorem locate_locatable [FloatOrder F] (geod : Geod F) (lon1 lat1 lon2 lat2 : F) (s : NArr F × NArr F)
    (hw : s.1.WF) (hs : Spec.SameShape s.1 s.2) :
    ∃ c, locate geod lon1 lat1 lon2 lat2 s = .ok c ∧
      (Spec.Locatable geod lon1 lat1 s → InRange s.1.mat c.1) ∧
      (¬ Spec.Locatable geod lon1 lat1 s → c.1 = (-1, -1)) ∧
      (Spec.Locatable geod lon2 lat2 s → InRange s.1.mat c.2) ∧
      (¬ Spec.Locatable geod lon2 lat2 s → c.2 = (-1, -1)) := by
  obtain ⟨i, j, d, e, p, q⟩ := nearest_locatable geod lon1 lat1 s hw hs
  obtain ⟨i', j', d', e', p', q'⟩ := nearest_locatable geod lon2 lat2 s hw hs
  refine ⟨((i, j), (i', j')), ?_, p, fun h => ?_, p', fun h => ?_⟩
  · unfold locate; rw [e, e']; rfl
  · obtain ⟨rfl, rfl⟩ := q h; rfl
  · obtain ⟨rfl, rfl⟩ := q' h; rfl

section regrid
variable [F64 F]

/-- **C31** is false: with exactly one locatable corner, `regrid` never returns and never raises, whatever the
bound on the number of loop tests. -/
theorem C31_hangs_if_one_corner_unlocated [FloatOrder F] (geod : Geod F) (fs : Files F) (a : RegridArgs F)
    (d : MatDict F) (hsrc : readSource fs a = .ok d) (hw : d.xg.WF) (hs : Spec.SameShape d.xg d.yg)
    (hone : (Spec.Locatable geod a.lon1 a.lat1 (d.xg, d.yg) ∧ ¬ Spec.Locatable geod a.lon2 a.lat2 (d.xg, d.yg)) ∨
      (¬ Spec.Locatable geod a.lon1 a.lat1 (d.xg, d.yg) ∧ Spec.Locatable geod a.lon2 a.lat2 (d.xg, d.yg))) :
    ∀ fuel, regrid geod fs fuel a = none := by
  obtain ⟨c, hl, p1, q1, p2, q2⟩ := locate_locatable geod a.lon1 a.lat1 a.lon2 a.lat2 (d.xg, d.yg) hw hs
  have ho : OneLocated (d.xg, d.yg) c := by
    rcases hone with ⟨x, y⟩ | ⟨x, y⟩
    · exact .inr ⟨p1 x, q2 y⟩
    · exact .inl ⟨q1 x, p2 y⟩
  have hnd : ¬ (c.1.1 = c.2.1 ∨ c.1.2 = c.2.2) := by
    rcases ho with ⟨x, y⟩ | ⟨x, y⟩
    · unfold InRange at y; rw [x]; dsimp only; omega
    · unfold InRange at x; rw [y]; dsimp only; omega
  intro fuel
  unfold regrid regridXY
  rw [hsrc]
  dsimp only
  rw [hl]
  dsimp only
  rw [if_neg hnd, align_hangs _ _ _ _ _ _ _ _ hw hl ho]

/-- **C31**, the part that holds: `regrid` returns or raises, within four loop tests, whenever both or neither
corner is locatable (or the source cannot be read, or shapes mismatch).
Missing for C31: exactly one locatable corner, where it is false (`C31_hangs_if_one_corner_unlocated`). -/
theorem C31_never_hangs_partial [FloatOrder F] (geod : Geod F) (fs : Files F) (a : RegridArgs F)
    (hgood : ∀ d, readSource fs a = .ok d → d.xg.WF ∧ (Spec.SameShape d.xg d.yg →
      (Spec.Locatable geod a.lon1 a.lat1 (d.xg, d.yg) ↔ Spec.Locatable geod a.lon2 a.lat2 (d.xg, d.yg)))) :
    ∃ out, ∀ fuel, 4 ≤ fuel → regrid geod fs fuel a = some out := by
  cases hsrc : readSource fs a with
  | error e => exact ⟨_, fun _ _ => by unfold regrid; rw [hsrc]⟩
  | ok d =>
    obtain ⟨hw, hg⟩ := hgood d hsrc
    rcases regridXY_cases geod a.lon1 a.lat1 a.lon2 a.lat2 a.lonSub a.latSub (d.xg, d.yg) hw with
      ⟨e, -, h⟩ | ⟨c, hl, ⟨-, h⟩ | ⟨ho, -⟩ | ⟨-, k, c', hk, -, h⟩⟩
    · exact ⟨_, fun fuel _ => by unfold regrid; rw [hsrc]; dsimp only; rw [h fuel]⟩
    · exact ⟨_, fun fuel _ => by unfold regrid; rw [hsrc]; dsimp only; rw [h fuel]⟩
    · exfalso
      have hs := locate_shapes _ _ _ _ _ _ _ hl
      have hg := hg hs
      obtain ⟨c', hl', p1, q1, p2, q2⟩ := locate_locatable geod a.lon1 a.lat1 a.lon2 a.lat2 (d.xg, d.yg) hw hs
      rw [hl] at hl'
      cases hl'
      by_cases hL : Spec.Locatable geod a.lon1 a.lat1 (d.xg, d.yg)
      · have x := p1 hL
        have y := p2 (hg.1 hL)
        unfold InRange at x y
        rcases ho with ⟨o, -⟩ | ⟨-, o⟩
        · rw [o] at x; dsimp only at x; omega
        · rw [o] at y; dsimp only at y; omega
      · have x := q1 hL
        have y := q2 (fun h => hL (hg.2 h))
        rcases ho with ⟨-, o⟩ | ⟨o, -⟩
        · unfold InRange at o; rw [y] at o; dsimp only at o; omega
        · unfold InRange at o; rw [x] at o; dsimp only at o; omega
    · refine ⟨(if usesCallersDict a then some { d with xg := (turns k (d.xg, d.yg)).1, yg := (turns k (d.xg, d.yg)).2 }
        else a.matrices, regridBlock geod (turns k (d.xg, d.yg)).1.mat (turns k (d.xg, d.yg)).2.mat c'
          a.lonSub a.latSub), fun fuel hf => ?_⟩
      have := h (fuel - k - 1)
      have e : k + (fuel - k - 1) + 1 = fuel := by omega
      rw [e] at this
      unfold regrid; rw [hsrc]; dsimp only; rw [this]

/-! ## C32–C34: successful calls -/

/-- What a successful call computes: a number of quarter turns, the block of the turned arrays between the corner points, `fill` on a compute grid that
holds the points of the block and zeros, `tomitgrid` on the result. -/
theorem regrid_built [ZeroLaw F] (geod : Geod F) (fs : Files F) (fuel : Nat) (a : RegridArgs F)
    (d : MatDict F) (hsrc : readSource fs a = .ok d) (hw : d.xg.WF)
    (dict' : Option (MatDict F)) (g : Grid F) (ni nj : Int)
    (h : regrid geod fs fuel a = some (dict', .ok (g, ni, nj))) :
    ∃ k c c', (k ≤ 3 ∧ locate geod a.lon1 a.lat1 a.lon2 a.lat2 (d.xg, d.yg) = .ok c ∧
      Diagonal (d.xg, d.yg) c ∧ AlignsAfter geod a.lon1 a.lat1 a.lon2 a.lat2 k (d.xg, d.yg) c c' ∧
      Spec.SameShape d.xg d.yg ∧
      dict' = (if usesCallersDict a then
        some { d with xg := (turns k (d.xg, d.yg)).1, yg := (turns k (d.xg, d.yg)).2 } else a.matrices)) ∧
      ∃ i0 j0 p q ls lt : Nat, (c' = (((i0 : Int), ((j0 + q : Nat) : Int)), (((i0 + p : Nat) : Int), (j0 : Int))) ∧
        0 < p ∧ 0 < q ∧ 0 < ls ∧ 0 < lt ∧ a.lonSub = ls ∧ a.latSub = lt ∧
        i0 + p < (turns k (d.xg, d.yg)).1.mat.rows ∧ j0 + q < (turns k (d.xg, d.yg)).1.mat.cols ∧
        ni = ((p * ls : Nat) : Int) ∧ nj = ((q * lt : Nat) : Int)) ∧
        ∃ s0 s : Mat F × Mat F, Spec.FillWindow s0.1 s0.2 1 (1 + p * (2 * ls)) 1 (1 + q * (2 * lt)) ls lt ∧
          (∀ i j, i ≤ p → j ≤ q → Spec.at s0 (1 + i * (2 * ls)) (1 + j * (2 * lt)) =
            ((turns k (d.xg, d.yg)).1.mat.get (i0 + i) (j0 + j), (turns k (d.xg, d.yg)).2.mat.get (i0 + i) (j0 + j))) ∧
          (∀ r c, Spec.at s0 r c = (Arith.zero, Arith.zero) ∨ ∃ i j, i ≤ p ∧ j ≤ q ∧ r = 1 + i * (2 * ls) ∧ c = 1 + j * (2 * lt)) ∧
          fill geod s0.1 s0.2 1 (1 + p * (2 * ls)) 1 (1 + q * (2 * lt)) ls lt = .ok s ∧
          Spec.Ringed s.1 s.2 (p * ls) (q * lt) ∧ tomitgridRing geod s.1 s.2 (p * ls) (q * lt) = .ok g := by
  unfold regrid at h
  rw [hsrc] at h
  dsimp only at h
  cases hx : regridXY geod a.lon1 a.lat1 a.lon2 a.lat2 a.lonSub a.latSub fuel (d.xg, d.yg) with
  | none => rw [hx] at h; cases h
  | some sr =>
    obtain ⟨s', r⟩ := sr
    rw [hx] at h
    simp only [Option.some.injEq, Prod.mk.injEq] at h
    obtain ⟨hd', hr⟩ := h
    subst hr
    rcases regridXY_cases geod a.lon1 a.lat1 a.lon2 a.lat2 a.lonSub a.latSub (d.xg, d.yg) hw with
      ⟨e, -, h⟩ | ⟨c, hl, ⟨-, h⟩ | ⟨ho, h⟩ | ⟨hdg, k, c', hk, hal, h⟩⟩
    · rw [h fuel] at hx; cases hx
    · rw [h fuel] at hx; cases hx
    · rw [h fuel] at hx; cases hx
    · have := regridXY_det _ _ _ _ _ _ _ _ _ _ _ _ hx (h 0)
      simp only [Prod.mk.injEq] at this
      obtain ⟨rfl, hb⟩ := this
      have hs := locate_shapes _ _ _ _ _ _ _ hl
      have hsh := turns_shape k (d.xg, d.yg) hs
      have hal' := hal
      obtain ⟨⟨n1, n2, -, -⟩, ha, hl', -⟩ := hal'
      have hpos : 0 < a.lonSub ∧ 0 < a.latSub := by
        apply Classical.byContradiction
        intro hn
        obtain ⟨e, he⟩ := regridBlock_rejects geod _ _ c' a.lonSub a.latSub hsh.1.symm hsh.2.1.symm n1 n2 ha
          (by omega)
        rw [he] at hb; cases hb
      rw [aligned_iff] at ha
      unfold InRange at n1 n2
      obtain ⟨⟨i1, j1⟩, ⟨i2, j2⟩⟩ := c'
      dsimp only at ha n1 n2
      obtain ⟨i0, rfl⟩ := Int.eq_ofNat_of_zero_le n1.1
      obtain ⟨j0, rfl⟩ := Int.eq_ofNat_of_zero_le n2.2.2.1
      obtain ⟨p, hp⟩ := Int.eq_ofNat_of_zero_le (show 0 ≤ i2 - (i0 : Int) by omega)
      obtain ⟨q, hq⟩ := Int.eq_ofNat_of_zero_le (show 0 ≤ j1 - (j0 : Int) by omega)
      obtain ⟨ls, hls⟩ := Int.eq_ofNat_of_zero_le (show 0 ≤ a.lonSub by omega)
      obtain ⟨lt, hlt⟩ := Int.eq_ofNat_of_zero_le (show 0 ≤ a.latSub by omega)
      obtain rfl : i2 = ((i0 + p : Nat) : Int) := by omega
      obtain rfl : j1 = ((j0 + q : Nat) : Int) := by omega
      rw [hls, hlt] at hb
      obtain ⟨s0, s, g', hwin, hnodes, hzero, hf, hring, hg, hblk⟩ :=
        regridBlock_spec geod (turns k (d.xg, d.yg)).1.mat (turns k (d.xg, d.yg)).2.mat i0 j0 p q ls lt
          hsh.1.symm hsh.2.1.symm (by omega) (by omega) (by omega) (by omega) (by omega) (by omega)
      rw [hblk] at hb
      cases hb
      exact ⟨k, c, _, ⟨hk, hl, hdg, hal, hs, hd'.symm⟩, i0, j0, p, q, ls, lt, ⟨rfl, by omega, by omega,
        by omega, by omega, hls, hlt, by omega, by omega, rfl, rfl⟩, s0, s, hwin, hnodes, hzero, hf, hring, hg⟩

/-- Everything a successful call guarantees; C32-C34 are read off from it. -/
theorem regrid_success [ZeroLaw F] (geod : Geod F) (fs : Files F) (fuel : Nat) (a : RegridArgs F)
    (d : MatDict F) (hsrc : readSource fs a = .ok d) (hw : d.xg.WF)
    (dict' : Option (MatDict F)) (g : Grid F) (ni nj : Int)
    (h : regrid geod fs fuel a = some (dict', .ok (g, ni, nj))) :
    ∃ k c c', k ≤ 3 ∧ locate geod a.lon1 a.lat1 a.lon2 a.lat2 (d.xg, d.yg) = .ok c ∧
      Diagonal (d.xg, d.yg) c ∧ AlignsAfter geod a.lon1 a.lat1 a.lon2 a.lat2 k (d.xg, d.yg) c c' ∧
      Spec.SameShape d.xg d.yg ∧
      dict' = (if usesCallersDict a then
        some { d with xg := (turns k (d.xg, d.yg)).1, yg := (turns k (d.xg, d.yg)).2 } else a.matrices) ∧
      ∃ i0 j0 p q ls lt : Nat, c' = (((i0 : Int), ((j0 + q : Nat) : Int)), (((i0 + p : Nat) : Int), (j0 : Int))) ∧
        0 < p ∧ 0 < q ∧ 0 < ls ∧ 0 < lt ∧ a.lonSub = ls ∧ a.latSub = lt ∧
        i0 + p < (turns k (d.xg, d.yg)).1.mat.rows ∧ j0 + q < (turns k (d.xg, d.yg)).1.mat.cols ∧
        ni = ((p * ls : Nat) : Int) ∧ nj = ((q * lt : Nat) : Int) ∧
        Spec.Complete g (p * ls) (q * lt) ∧
        ∃ XG YG, g .XG = .arr XG ∧ g .YG = .arr YG ∧
          ∀ x y, x ≤ p → y ≤ q →
            XG.get (x * ls) (y * lt) = (turns k (d.xg, d.yg)).1.mat.get (i0 + x) (j0 + y) ∧
            YG.get (x * ls) (y * lt) = (turns k (d.xg, d.yg)).2.mat.get (i0 + x) (j0 + y) := by
  obtain ⟨k, c, c', ⟨hk, hl, hdg, hal, hs, hd'⟩, i0, j0, p, q, ls, lt, ⟨hc', hp, hq, hls0, hlt0, hls, hlt, hi, hj, hni, hnj⟩, s0, s, hwin, hnodes, -, hf,
    hring, hg⟩ := regrid_built geod fs fuel a d hsrc hw dict' g ni nj h
  refine ⟨k, c, c', hk, hl, hdg, hal, hs, hd', i0, j0, p, q, ls, lt, hc', hp, hq, hls0, hlt0, hls, hlt, hi, hj, hni, hnj, ?_⟩
  obtain ⟨g'', hg', hc⟩ := C21_tomitgrid_complete geod s.1 s.2 (p * ls) (q * lt) hring
  rw [hg] at hg'; cases hg'
  refine ⟨hc, ?_⟩
  obtain ⟨g'', XG, YG, -, -, hg', x1, y1, -, -, hv, -⟩ :=
    C22_partition geod s.1 s.2 (p * ls) (q * lt) hring
  rw [hg] at hg'; cases hg'
  refine ⟨XG, YG, x1, y1, fun x y hx' hy' => ?_⟩
  obtain ⟨s', hf', -, -, hnode⟩ := C17_fill_preserves geod _ _ _ _ _ _ _ _ hwin
  rw [hf] at hf'; cases hf'
  have v := hv (x * ls) (y * lt) (Nat.mul_le_mul_right _ hx') (Nat.mul_le_mul_right _ hy')
  have ex : 1 + 2 * (x * ls) = 1 + x * (2 * ls) := by rw [Nat.mul_left_comm]
  have ey : 1 + 2 * (y * lt) = 1 + y * (2 * lt) := by rw [Nat.mul_left_comm]
  rw [ex, ey] at v
  have n := (hnode x y).trans (hnodes x y hx' hy')
  simp only [Spec.at, Prod.mk.injEq] at n
  exact ⟨v.1.trans n.1, v.2.trans n.2⟩

theorem nearest_of_locate (geod : Geod F) (lon1 lat1 lon2 lat2 : F) (s : NArr F × NArr F) (i1 j1 i2 j2 : Int)
    (hl : locate geod lon1 lat1 lon2 lat2 s = .ok ((i1, j1), (i2, j2))) :
    ∃ d1 d2, nearest geod lon1 lat1 s.1 s.2 = .ok (i1, j1, d1) ∧ nearest geod lon2 lat2 s.1 s.2 = .ok (i2, j2, d2) := by
  unfold locate at hl
  cases h1 : nearest geod lon1 lat1 s.1 s.2 with
  | error e => rw [h1] at hl; cases hl
  | ok A =>
    cases h2 : nearest geod lon2 lat2 s.1 s.2 with
    | error e => rw [h1, h2] at hl; cases hl
    | ok B =>
      rw [h1, h2] at hl
      have := Except.ok.inj hl
      simp only [Prod.mk.injEq] at this
      obtain ⟨⟨a1, a2⟩, ⟨a3, a4⟩⟩ := this
      refine ⟨A.2.2, B.2.2, ?_, ?_⟩
      · rw [← a1, ← a2]
      · rw [← a3, ← a4]

/-- **C32**: on success there are a number of quarter turns and a block of cells of the turned input, with the points nearest to the two corner points
given at its corners, such that every corner point of the block appears unchanged in the output, at every `lon_subscale`-th row and
`lat_subscale`-th column; the block spans the whole output. -/
theorem C32_regrid_preserves_points [ZeroLaw F] (geod : Geod F) (fs : Files F) (fuel : Nat) (a : RegridArgs F)
    (d : MatDict F) (hsrc : readSource fs a = .ok d) (hw : d.xg.WF)
    (dict' : Option (MatDict F)) (g : Grid F) (ni nj : Int)
    (h : regrid geod fs fuel a = some (dict', .ok (g, ni, nj))) :
    ∃ (k i0 j0 p q ls lt : Nat) (d1 d2 : F) (XG YG : Mat F), k ≤ 3 ∧ a.lonSub = ls ∧ a.latSub = lt ∧
      nearest geod a.lon1 a.lat1 (turns k (d.xg, d.yg)).1 (turns k (d.xg, d.yg)).2 = .ok (i0, (j0 + q : Nat), d1) ∧
      nearest geod a.lon2 a.lat2 (turns k (d.xg, d.yg)).1 (turns k (d.xg, d.yg)).2 = .ok ((i0 + p : Nat), j0, d2) ∧
      g .XG = .arr XG ∧ g .YG = .arr YG ∧
      XG.rows = p * ls + 1 ∧ XG.cols = q * lt + 1 ∧ YG.rows = p * ls + 1 ∧ YG.cols = q * lt + 1 ∧
      i0 + p < (turns k (d.xg, d.yg)).1.mat.rows ∧ j0 + q < (turns k (d.xg, d.yg)).1.mat.cols ∧
      ∀ x y, x ≤ p → y ≤ q →
        XG.get (x * ls) (y * lt) = (turns k (d.xg, d.yg)).1.mat.get (i0 + x) (j0 + y) ∧
        YG.get (x * ls) (y * lt) = (turns k (d.xg, d.yg)).2.mat.get (i0 + x) (j0 + y) := by
  obtain ⟨k, c, c', hk, -, -, hal, -, -, i0, j0, p, q, ls, lt, rfl, -, -, -, -, hls, hlt, hi, hj, -, -, hc,
    XG, YG, x1, y1, hv⟩ := regrid_success geod fs fuel a d hsrc hw dict' g ni nj h
  obtain ⟨X', ex, xr, xc⟩ := hc .XG
  obtain ⟨Y', ey, yr, yc⟩ := hc .YG
  rw [x1] at ex; cases ex
  rw [y1] at ey; cases ey
  obtain ⟨d1, d2, h1, h2⟩ := nearest_of_locate _ _ _ _ _ _ _ _ _ _ hal.2.2.1
  exact ⟨k, i0, j0, p, q, ls, lt, d1, d2, XG, YG, hk, hls, hlt, h1, h2, x1, y1, xr, xc, yr, yc, hi, hj, hv⟩

/-- **C33**: on success the input grid point nearest to `(lon1,lat1)` is at output `[0,-1]`, the one nearest to
`(lon2,lat2)` at output `[-1,0]` (longitude and latitude). -/
theorem C33_regrid_orientation [ZeroLaw F] (geod : Geod F) (fs : Files F) (fuel : Nat) (a : RegridArgs F)
    (d : MatDict F) (hsrc : readSource fs a = .ok d) (hw : d.xg.WF)
    (dict' : Option (MatDict F)) (g : Grid F) (ni nj : Int)
    (h : regrid geod fs fuel a = some (dict', .ok (g, ni, nj))) :
    ∃ (i1 j1 i2 j2 : Nat) (d1 d2 : F) (XG YG : Mat F),
      nearest geod a.lon1 a.lat1 d.xg d.yg = .ok (i1, j1, d1) ∧
      nearest geod a.lon2 a.lat2 d.xg d.yg = .ok (i2, j2, d2) ∧
      g .XG = .arr XG ∧ g .YG = .arr YG ∧
      XG.atI 0 (-1) = .ok (d.xg.mat.get i1 j1) ∧ YG.atI 0 (-1) = .ok (d.yg.mat.get i1 j1) ∧
      XG.atI (-1) 0 = .ok (d.xg.mat.get i2 j2) ∧ YG.atI (-1) 0 = .ok (d.yg.mat.get i2 j2) := by
  obtain ⟨k, c, c', hk, hl, hdg, hal, hs, -, i0, j0, p, q, ls, lt, rfl, -, -, -, -, hls, hlt, hi, hj, -, -, hc,
    XG, YG, x1, y1, hv⟩ := regrid_success geod fs fuel a d hsrc hw dict' g ni nj h
  obtain ⟨X', ex, xr, xc⟩ := hc .XG
  obtain ⟨Y', ey, yr, yc⟩ := hc .YG
  rw [x1] at ex; cases ex
  rw [y1] at ey; cases ey
  simp only [Spec.nrows, Spec.ncols] at xr xc yr yc
  obtain ⟨-, ⟨va, vb⟩, ⟨vc, vd⟩⟩ := turns_value geod _ _ _ _ k (d.xg, d.yg) hw c _ hs hl hdg hal.2.2.1
  dsimp only at va vb vc vd
  have hc1 := hdg.nw
  have hc2 := hdg.se
  unfold InRange at hc1 hc2
  obtain ⟨⟨i1, j1⟩, ⟨i2, j2⟩⟩ := c
  dsimp only at hc1 hc2 va vb vc vd
  obtain ⟨i1, rfl⟩ := Int.eq_ofNat_of_zero_le hc1.1
  obtain ⟨j1, rfl⟩ := Int.eq_ofNat_of_zero_le hc1.2.2.1
  obtain ⟨i2, rfl⟩ := Int.eq_ofNat_of_zero_le hc2.1
  obtain ⟨j2, rfl⟩ := Int.eq_ofNat_of_zero_le hc2.2.2.1
  obtain ⟨d1, d2, h1, h2⟩ := nearest_of_locate _ _ _ _ _ _ _ _ _ _ hl
  have last : ∀ k : Nat, pyIdx (k + 1) (-1) = some k := by
    intro k; unfold pyIdx; rw [if_neg (by omega), if_pos (by omega)]; congr 1; omega
  have first : ∀ k : Nat, pyIdx (k + 1) 0 = some 0 := by
    intro k; unfold pyIdx; rw [if_pos (by omega), if_pos (by omega)]; rfl
  have t1 : ((i0 : Nat) : Int).toNat = i0 := rfl
  have v01 := hv 0 q (by omega) (by omega)
  have v10 := hv p 0 (by omega) (by omega)
  rw [Nat.zero_mul, Nat.add_zero] at v01 v10
  refine ⟨i1, j1, i2, j2, d1, d2, XG, YG, h1, h2, x1, y1, ?_, ?_, ?_, ?_⟩ <;>
    unfold Mat.atI <;> simp only [xr, xc, yr, yc, last, first] <;> congr 1
  · exact v01.1.trans va
  · exact v01.2.trans vb
  · exact v10.1.trans vc
  · exact v10.2.trans vd

/-- **C34**: on success the returned counts are positive multiples of the subscales (the number of block cells times
the subscale), and all 16 arrays have the documented sizes for them. -/
theorem C34_regrid_sizes [ZeroLaw F] (geod : Geod F) (fs : Files F) (fuel : Nat) (a : RegridArgs F)
    (d : MatDict F) (hsrc : readSource fs a = .ok d) (hw : d.xg.WF)
    (dict' : Option (MatDict F)) (g : Grid F) (ni nj : Int)
    (h : regrid geod fs fuel a = some (dict', .ok (g, ni, nj))) :
    ∃ (i1 j1 i2 j2 : Nat) (d1 d2 : F) (p q : Nat),
      nearest geod a.lon1 a.lat1 d.xg d.yg = .ok (i1, j1, d1) ∧
      nearest geod a.lon2 a.lat2 d.xg d.yg = .ok (i2, j2, d2) ∧
      -- p x q are the block's sides, in one order or the other
      ((p = (i1 : Int) - i2 ∨ p = (i2 : Int) - i1) ∧ (q = (j1 : Int) - j2 ∨ q = (j2 : Int) - j1) ∨
       (q = (i1 : Int) - i2 ∨ q = (i2 : Int) - i1) ∧ (p = (j1 : Int) - j2 ∨ p = (j2 : Int) - j1)) ∧
      ni = p * a.lonSub ∧ nj = q * a.latSub ∧ 0 < ni ∧ 0 < nj ∧
      Spec.Complete g ni.toNat nj.toNat := by
  obtain ⟨i1, j1, i2, j2, d1, d2, -, -, h1, h2, -⟩ :=
    C33_regrid_orientation geod fs fuel a d hsrc hw dict' g ni nj h
  obtain ⟨k, c, c', hk, hl, hdg, hal, hs, -, i0, j0, p, q, ls, lt, hc', hp, hq, hls0, hlt0, hls, hlt, hi, hj,
    hni, hnj, hc, -⟩ := regrid_success geod fs fuel a d hsrc hw dict' g ni nj h
  have hcc : c = (((i1 : Int), (j1 : Int)), ((i2 : Int), (j2 : Int))) := by
    unfold locate at hl
    rw [h1, h2] at hl
    exact (Except.ok.inj hl).symm
  subst hcc
  -- side lengths are permuted by turns
  have sides : ∀ (k : Nat) (s : NArr F × NArr F) (c c' : Corners), s.1.WF →
      locate geod a.lon1 a.lat1 a.lon2 a.lat2 s = .ok c → Diagonal s c →
      locate geod a.lon1 a.lat1 a.lon2 a.lat2 (turns k s) = .ok c' →
      ((c'.1.1 - c'.2.1).natAbs = (c.1.1 - c.2.1).natAbs ∧ (c'.1.2 - c'.2.2).natAbs = (c.1.2 - c.2.2).natAbs) ∨
      ((c'.1.1 - c'.2.1).natAbs = (c.1.2 - c.2.2).natAbs ∧ (c'.1.2 - c'.2.2).natAbs = (c.1.1 - c.2.1).natAbs) := by
    intro k
    induction k with
    | zero =>
      intro s c c' _ hl _ hl'
      have : c' = c := by rw [show turns 0 s = s from rfl, hl] at hl'; exact (Except.ok.inj hl').symm
      subst this; left; exact ⟨rfl, rfl⟩
    | succ k ih =>
      intro s c c' hw hl hd hl'
      obtain ⟨d1, e1⟩ := diagonal_turn s c hd
      have := ih (turn s) _ c' (NArr.rot90_wf hw) (locate_turn_ok _ _ _ _ _ _ hw _ hl) d1 hl'
      rw [e1] at this
      dsimp only at this
      omega
  have := sides k _ _ _ hw hl hdg hal.2.2.1
  rw [hc'] at this
  dsimp only at this
  refine ⟨i1, j1, i2, j2, d1, d2, p, q, h1, h2, by omega, ?_, ?_, ?_, ?_, ?_⟩
  · rw [hni, hls, Int.natCast_mul]
  · rw [hnj, hlt, Int.natCast_mul]
  · have := Nat.mul_pos hp hls0; omega
  · have := Nat.mul_pos hq hlt0; omega
  · rw [hni, hnj]; exact hc

/-- **C34**, converse: with both corners located in different rows and columns and subscales `≥ 1`, `regrid`
succeeds. -/
theorem C34_regrid_succeeds [ZeroLaw F] (geod : Geod F) (fs : Files F) (a : RegridArgs F)
    (d : MatDict F) (hsrc : readSource fs a = .ok d) (hw : d.xg.WF) (i1 j1 i2 j2 : Nat) (d1 d2 : F)
    (h1 : nearest geod a.lon1 a.lat1 d.xg d.yg = .ok (i1, j1, d1))
    (h2 : nearest geod a.lon2 a.lat2 d.xg d.yg = .ok (i2, j2, d2)) (hi : i1 ≠ i2) (hj : j1 ≠ j2)
    (hls : 1 ≤ a.lonSub) (hlt : 1 ≤ a.latSub) (fuel : Nat) (hf : 4 ≤ fuel) :
    ∃ dict' g ni nj, regrid geod fs fuel a = some (dict', .ok (g, ni, nj)) := by
  have hl : locate geod a.lon1 a.lat1 a.lon2 a.lat2 (d.xg, d.yg) = .ok ((i1, j1), (i2, j2)) := by
    unfold locate; rw [h1, h2]; rfl
  rcases regridXY_cases geod a.lon1 a.lat1 a.lon2 a.lat2 a.lonSub a.latSub (d.xg, d.yg) hw with
    ⟨e, he, -⟩ | ⟨c, hl', hcases⟩
  · rw [hl] at he; cases he
  rw [hl] at hl'; cases hl'
  rcases hcases with ⟨hd, -⟩ | ⟨ho, -⟩ | ⟨hdg, k, c', hk, hal, h⟩
  · exfalso; dsimp only at hd; omega
  · exfalso
    rcases ho with ⟨ho, -⟩ | ⟨-, ho⟩ <;> simp only [Prod.mk.injEq] at ho <;> omega
  · have hs := turns_shape k (d.xg, d.yg) (locate_shapes _ _ _ _ _ _ _ hl)
    obtain ⟨⟨n1, n2, -, -⟩, ha, -, -⟩ := hal
    rw [aligned_iff] at ha
    unfold InRange at n1 n2
    obtain ⟨⟨a1, b1⟩, ⟨a2, b2⟩⟩ := c'
    dsimp only at ha n1 n2
    obtain ⟨i0, rfl⟩ := Int.eq_ofNat_of_zero_le n1.1
    obtain ⟨j0, rfl⟩ := Int.eq_ofNat_of_zero_le n2.2.2.1
    obtain ⟨p, hp⟩ := Int.eq_ofNat_of_zero_le (show 0 ≤ a2 - (i0 : Int) by omega)
    obtain ⟨q, hq⟩ := Int.eq_ofNat_of_zero_le (show 0 ≤ b1 - (j0 : Int) by omega)
    obtain ⟨ls, hls'⟩ := Int.eq_ofNat_of_zero_le (show 0 ≤ a.lonSub by omega)
    obtain ⟨lt, hlt'⟩ := Int.eq_ofNat_of_zero_le (show 0 ≤ a.latSub by omega)
    obtain rfl : a2 = ((i0 + p : Nat) : Int) := by omega
    obtain rfl : b1 = ((j0 + q : Nat) : Int) := by omega
    obtain ⟨_, _, g, -, -, -, -, -, -, hblk⟩ :=
      regridBlock_spec geod (turns k (d.xg, d.yg)).1.mat (turns k (d.xg, d.yg)).2.mat i0 j0 p q ls lt
        hs.1.symm hs.2.1.symm (by omega) (by omega) (by omega) (by omega) (by omega) (by omega)
    have e : k + (fuel - k - 1) + 1 = fuel := by omega
    have := h (fuel - k - 1)
    rw [e, hls', hlt', hblk] at this
    refine ⟨(if usesCallersDict a then some { d with xg := (turns k (d.xg, d.yg)).1, yg := (turns k (d.xg, d.yg)).2 }
        else a.matrices), g, ((p * ls : Nat) : Int), ((q * lt : Nat) : Int), ?_⟩
    unfold regrid
    rw [hsrc]
    dsimp only
    rw [hls', hlt', this]

/-- **C34**, rejections: a non-positive subscale never yields a grid, ... -/
theorem C34_regrid_rejects_subscale [ZeroLaw F] (geod : Geod F) (fs : Files F) (fuel : Nat) (a : RegridArgs F)
    (hw : ∀ d, readSource fs a = .ok d → d.xg.WF) (h : a.lonSub ≤ 0 ∨ a.latSub ≤ 0)
    (dict' : Option (MatDict F)) (r : Py (Grid F × Int × Int))
    (hr : regrid geod fs fuel a = some (dict', r)) : ∃ e, r = .error e := by
  cases r with
  | error e => exact ⟨e, rfl⟩
  | ok x =>
    exfalso
    cases hsrc : readSource fs a with
    | error e => unfold regrid at hr; rw [hsrc] at hr; cases hr
    | ok d =>
      obtain ⟨g, ni, nj⟩ := x
      obtain ⟨_, _, _, _, _, _, _, _, _, _, _, _, _, ls, lt, _, _, _, h1, h2, h3, h4, _⟩ :=
        regrid_success geod fs fuel a d hsrc (hw d hsrc) dict' g ni nj hr
      omega

/-- ... and corner points located in the same row or column raise `ValueError`, leaving the caller's grid alone. -/
theorem C34_regrid_rejects_degenerate (geod : Geod F) (fs : Files F) (fuel : Nat) (a : RegridArgs F)
    (d : MatDict F) (hsrc : readSource fs a = .ok d) (i1 j1 i2 j2 : Int) (d1 d2 : F)
    (h1 : nearest geod a.lon1 a.lat1 d.xg d.yg = .ok (i1, j1, d1))
    (h2 : nearest geod a.lon2 a.lat2 d.xg d.yg = .ok (i2, j2, d2)) (h : i1 = i2 ∨ j1 = j2) :
    regrid geod fs fuel a =
      some (if usesCallersDict a then some d else a.matrices, .error .valueError) := by
  unfold regrid regridXY locate
  rw [hsrc]
  dsimp only
  rw [h1, Py.ok_bind, h2, Py.ok_bind]
  dsimp only [pure, Except.pure]
  rw [if_pos h]

/-- **C30** (whole call): with both corner points located in different rows and columns of the grid, `regrid` returns or raises, and
four tests of the loop condition suffice: a larger bound makes no difference. -/
theorem C30_regrid_stops (geod : Geod F) (fs : Files F) (a : RegridArgs F) (d : MatDict F)
    (hsrc : readSource fs a = .ok d) (hw : d.xg.WF) (i1 j1 i2 j2 : Nat) (d1 d2 : F)
    (h1 : nearest geod a.lon1 a.lat1 d.xg d.yg = .ok (i1, j1, d1))
    (h2 : nearest geod a.lon2 a.lat2 d.xg d.yg = .ok (i2, j2, d2)) (hi : i1 ≠ i2) (hj : j1 ≠ j2) :
    ∃ out, ∀ fuel, 4 ≤ fuel → regrid geod fs fuel a = some out := by
  have hl : locate geod a.lon1 a.lat1 a.lon2 a.lat2 (d.xg, d.yg) = .ok ((i1, j1), (i2, j2)) := by
    unfold locate; rw [h1, h2]; rfl
  rcases regridXY_cases geod a.lon1 a.lat1 a.lon2 a.lat2 a.lonSub a.latSub (d.xg, d.yg) hw with
    ⟨e, he, -⟩ | ⟨c, hl', hcases⟩
  · rw [hl] at he; cases he
  rw [hl] at hl'; cases hl'
  rcases hcases with ⟨hd, -⟩ | ⟨ho, -⟩ | ⟨hdg, k, c', hk, hal, h'⟩
  · exfalso; dsimp only at hd; omega
  · exfalso
    rcases ho with ⟨ho, -⟩ | ⟨-, ho⟩ <;> simp only [Prod.mk.injEq] at ho <;> omega
  · obtain ⟨r, hr⟩ : ∃ r, ∀ n, regridXY geod a.lon1 a.lat1 a.lon2 a.lat2 a.lonSub a.latSub (k + n + 1) (d.xg, d.yg) = some r :=
      ⟨_, h'⟩
    refine ⟨(if usesCallersDict a then some { d with xg := r.1.1, yg := r.1.2 } else a.matrices, r.2), fun fuel hf => ?_⟩
    unfold regrid
    rw [hsrc]
    dsimp only
    rw [show fuel = k + (fuel - k - 1) + 1 by omega, hr (fuel - k - 1)]

/-! ## C35, C37: orientation and history -/

/-- The dictionary with `XG` and `YG` replaced by `np.rot90(XG,k)`, `np.rot90(YG,k)`. -/
def Spec.rotated (k : Nat) (d : MatDict F) : MatDict F :=
  { d with xg := (turns k (d.xg, d.yg)).1, yg := (turns k (d.xg, d.yg)).2 }

theorem alignsAfter_unique (geod : Geod F) (lon1 lat1 lon2 lat2 : F) (k k' : Nat) (s : NArr F × NArr F)
    (c c1 c2 : Corners) (h : AlignsAfter geod lon1 lat1 lon2 lat2 k s c c1)
    (h' : AlignsAfter geod lon1 lat1 lon2 lat2 k' s c c2) : turns k s = turns k' s ∧ c1 = c2 := by
  have a := h.2.2.2 k'
  have b := h'.2.2.2 k
  rw [show k' + k + 1 = k + k' + 1 by omega, a] at b
  simp only [Option.some.injEq, Prod.mk.injEq, Except.ok.injEq] at b
  exact b

theorem regridXY_turn (geod : Geod F) (lon1 lat1 lon2 lat2 : F) (lonSub latSub : Int)
    (s : NArr F × NArr F) (hw : s.1.WF) (r : Py (Grid F × Int × Int)) :
    (∃ fuel s', regridXY geod lon1 lat1 lon2 lat2 lonSub latSub fuel (turn s) = some (s', r)) ↔
    (∃ fuel s', regridXY geod lon1 lat1 lon2 lat2 lonSub latSub fuel s = some (s', r)) := by
  have hwt : (turn s).1.WF := NArr.rot90_wf hw
  have lt := locate_turn geod lon1 lat1 lon2 lat2 s hw
  rcases regridXY_cases geod lon1 lat1 lon2 lat2 lonSub latSub s hw with
    ⟨e, he, h⟩ | ⟨c, hl, hcases⟩
  · rw [he] at lt
    rcases regridXY_cases geod lon1 lat1 lon2 lat2 lonSub latSub (turn s) hwt with
      ⟨e', he', h'⟩ | ⟨c', hl', -⟩
    · rw [lt] at he'; cases he'
      constructor
      · rintro ⟨fuel, s', hx⟩; rw [h' fuel] at hx; cases hx; exact ⟨0, s, h 0⟩
      · rintro ⟨fuel, s', hx⟩; rw [h fuel] at hx; cases hx; exact ⟨0, _, h' 0⟩
    · rw [lt] at hl'; cases hl'
  rw [hl] at lt
  change _ = Except.ok (rotC s.1.mat.cols c) at lt
  rcases regridXY_cases geod lon1 lat1 lon2 lat2 lonSub latSub (turn s) hwt with
    ⟨e', he', -⟩ | ⟨c', hl', hcases'⟩
  · rw [lt] at he'; cases he'
  rw [lt] at hl'; cases hl'
  obtain ⟨lc1, lc2⟩ := locate_cases _ _ _ _ _ _ hw _ hl
  rcases hcases with ⟨hd, h⟩ | ⟨ho, h⟩ | ⟨hdg, k, c1, hk, hal, h⟩
  · -- degenerate before and after the turn
    have hd' : (rotC s.1.mat.cols c).1.1 = (rotC s.1.mat.cols c).2.1 ∨
        (rotC s.1.mat.cols c).1.2 = (rotC s.1.mat.cols c).2.2 := by
      rcases lc1 with lc1 | lc1 <;> rcases lc2 with lc2 | lc2
      · left; show (rotP _ c.1).1 = (rotP _ c.2).1; rw [lc1, lc2]
      · exfalso; rw [lc1] at hd; unfold InRange at lc2; dsimp only at hd; omega
      · exfalso; rw [lc2] at hd; unfold InRange at lc1; dsimp only at hd; omega
      · show (rotP _ c.1).1 = (rotP _ c.2).1 ∨ (rotP _ c.1).2 = (rotP _ c.2).2
        rw [(rotP_inRange _ _ lc1).1, (rotP_inRange _ _ lc2).1]
        dsimp only; omega
    rcases hcases' with ⟨-, h'⟩ | ⟨ho, -⟩ | ⟨hdg, -⟩
    · constructor
      · rintro ⟨fuel, s', hx⟩; rw [h' fuel] at hx; cases hx; exact ⟨0, s, h 0⟩
      · rintro ⟨fuel, s', hx⟩; rw [h fuel] at hx; cases hx; exact ⟨0, _, h' 0⟩
    · exfalso
      rcases ho with ⟨x, y⟩ | ⟨x, y⟩
      · unfold InRange at y; rw [x] at hd'; dsimp only at hd'; omega
      · unfold InRange at x; rw [y] at hd'; dsimp only at hd'; omega
    · exact absurd hd' (by have := hdg.hi; have := hdg.hj; omega)
  · -- hangs before and after the turn
    have ho' := oneLocated_turn s c ho
    rcases hcases' with ⟨hd', -⟩ | ⟨-, h'⟩ | ⟨hdg, -⟩
    · exfalso
      rcases ho' with ⟨x, y⟩ | ⟨x, y⟩
      · unfold InRange at y; rw [x] at hd'; dsimp only at hd'; omega
      · unfold InRange at x; rw [y] at hd'; dsimp only at hd'; omega
    · constructor
      · rintro ⟨fuel, s', hx⟩; rw [h' fuel] at hx; cases hx
      · rintro ⟨fuel, s', hx⟩; rw [h fuel] at hx; cases hx
    · exfalso
      have a := hdg.nw
      have b := hdg.se
      unfold InRange at a b
      rcases ho' with ⟨x, -⟩ | ⟨-, y⟩
      · rw [x] at a; dsimp only at a; omega
      · rw [y] at b; dsimp only at b; omega
  · -- aligned after k turns
    obtain ⟨dt, et⟩ := diagonal_turn s c hdg
    rcases hcases' with ⟨hd', -⟩ | ⟨ho, -⟩ | ⟨-, k', c2, hk', hal', h'⟩
    · exact absurd hd' (by have := dt.hi; have := dt.hj; omega)
    · exfalso
      have a := dt.nw
      have b := dt.se
      unfold InRange at a b
      rcases ho with ⟨x, -⟩ | ⟨-, y⟩
      · rw [x] at a; dsimp only at a; omega
      · rw [y] at b; dsimp only at b; omega
    · have same : regridBlock geod (turns k s).1.mat (turns k s).2.mat c1 lonSub latSub =
          regridBlock geod (turns k' (turn s)).1.mat (turns k' (turn s)).2.mat c2 lonSub latSub := by
        cases hca : aligned c with
        | false =>
          obtain ⟨e1, e2⟩ := alignsAfter_unique _ _ _ _ _ _ _ _ _ _ _ hal
            (alignsAfter_succ _ _ _ _ _ _ _ _ _ hw hl hca hal')
          rw [e1, e2]; rfl
        | true =>
          obtain ⟨e1, e2⟩ := alignsAfter_unique _ _ _ _ _ _ _ _ _ _ _ hal
            (alignsAfter_zero _ _ _ _ _ _ _ hdg hl hca)
          obtain ⟨d2, t2⟩ := diagonal_turn _ _ dt
          obtain ⟨d3, t3⟩ := diagonal_turn _ _ d2
          obtain ⟨d4, t4⟩ := diagonal_turn _ _ d3
          have w2 : (turn (turn s)).1.WF := NArr.rot90_wf hwt
          have w3 : (turn (turn (turn s))).1.WF := NArr.rot90_wf w2
          have l2 := locate_turn_ok _ _ _ _ _ _ hwt _ lt
          have l3 := locate_turn_ok _ _ _ _ _ _ w2 _ l2
          have l4 := locate_turn_ok _ _ _ _ _ _ w3 _ l3
          have r4 := rotC_four s c hdg
          change rotC (turn (turn (turn s))).1.mat.cols (rotC (turn (turn s)).1.mat.cols
            (rotC (turn s).1.mat.cols (rotC s.1.mat.cols c))) = c at r4
          have hca' := hca
          rw [aligned_iff] at hca'
          have na : ∀ c : Corners, ¬ (c.2.2 < c.1.2 ∧ c.1.1 < c.2.1) → aligned c = false := by
            intro c h
            cases hh : aligned c with
            | false => rfl
            | true => exact absurd ((aligned_iff c).1 hh) h
          have n1 : aligned (rotC s.1.mat.cols c) = false := by
            apply na; rw [et]; dsimp only; omega
          have n2 : aligned (rotC (turn s).1.mat.cols (rotC s.1.mat.cols c)) = false := by
            apply na; rw [t2, et]; dsimp only; omega
          have n3 : aligned (rotC (turn (turn s)).1.mat.cols (rotC (turn s).1.mat.cols
              (rotC s.1.mat.cols c))) = false := by
            apply na; rw [t3, t2, et]; dsimp only; omega
          have al3 := alignsAfter_succ _ _ _ _ _ _ _ _ _ hwt lt n1
            (alignsAfter_succ _ _ _ _ _ _ _ _ _ w2 l2 n2
              (alignsAfter_succ _ _ _ _ _ _ _ _ _ w3 l3 n3
                (alignsAfter_zero _ _ _ _ _ _ _ d4 l4 (by rw [r4]; exact hca))))
          obtain ⟨e3, e4⟩ := alignsAfter_unique _ _ _ _ _ _ _ _ _ _ _ hal' al3
          rw [e1, e2, e3, e4, r4]
          have hs := locate_shapes _ _ _ _ _ _ _ hl
          refine regridBlock_congr geod _ _ _ _ c lonSub latSub ?_ ?_ hs.1.symm hs.2.1.symm hdg.nw hdg.se
          · exact ⟨rfl, rfl, fun i j hi hj => ((rot4_same s.1.mat).2.2 i j hi hj).symm⟩
          · exact ⟨rfl, rfl, fun i j hi hj => ((rot4_same s.2.mat).2.2 i j hi hj).symm⟩
      constructor
      · rintro ⟨fuel, s', hx⟩
        have := regridXY_det _ _ _ _ _ _ _ _ _ _ _ _ hx (h' 0)
        rw [← same] at this
        cases this
        exact ⟨_, _, h 0⟩
      · rintro ⟨fuel, s', hx⟩
        have := regridXY_det _ _ _ _ _ _ _ _ _ _ _ _ hx (h 0)
        rw [same] at this
        cases this
        exact ⟨_, _, h' 0⟩

theorem regridXY_turns (geod : Geod F) (lon1 lat1 lon2 lat2 : F) (lonSub latSub : Int) (k : Nat)
    (s : NArr F × NArr F) (hw : s.1.WF) (r : Py (Grid F × Int × Int)) :
    (∃ fuel s', regridXY geod lon1 lat1 lon2 lat2 lonSub latSub fuel (turns k s) = some (s', r)) ↔
    (∃ fuel s', regridXY geod lon1 lat1 lon2 lat2 lonSub latSub fuel s = some (s', r)) := by
  induction k generalizing s with
  | zero => exact Iff.rfl
  | succ k ih =>
    exact (ih (turn s) (NArr.rot90_wf hw)).trans (regridXY_turn geod lon1 lat1 lon2 lat2 lonSub latSub s hw r)

/-- The call `regrid(..., mitgrid_matrices=d)` ends with outcome `r` (a grid with its counts, or an exception). -/
def Spec.Ends (geod : Geod F) (fs : Files F) (a : RegridArgs F) (d : MatDict F)
    (r : Py (Grid F × Int × Int)) : Prop :=
  ∃ fuel dict', regrid geod fs fuel { a with matrices := some d } = some (dict', r)

theorem ends_iff (geod : Geod F) (fs : Files F) (a : RegridArgs F) (d : MatDict F)
    (r : Py (Grid F × Int × Int)) :
    Spec.Ends geod fs a d r ↔
      match readSource fs { a with matrices := some d } with
      | .error e => r = .error e
      | .ok d => ∃ fuel s', regridXY geod a.lon1 a.lat1 a.lon2 a.lat2 a.lonSub a.latSub fuel (d.xg, d.yg) =
          some (s', r) := by
  unfold Spec.Ends regrid
  cases readSource fs { a with matrices := some d } with
  | error e =>
    constructor
    · rintro ⟨_, _, h⟩; cases h; rfl
    · rintro rfl; exact ⟨0, _, rfl⟩
  | ok d1 =>
    dsimp only
    constructor
    · rintro ⟨fuel, dict', h⟩
      cases hx : regridXY geod a.lon1 a.lat1 a.lon2 a.lat2 a.lonSub a.latSub fuel (d1.xg, d1.yg) with
      | none => rw [hx] at h; cases h
      | some sr =>
        rw [hx] at h
        simp only [Option.some.injEq, Prod.mk.injEq] at h
        exact ⟨fuel, sr.1, by rw [hx, ← h.2]⟩
    · rintro ⟨fuel, s', h⟩
      exact ⟨fuel, _, by rw [h]⟩

theorem readSource_dict (fs : Files F) (a : RegridArgs F) (d : MatDict F)
    (h : usesCallersDict a = true) :
    readSource fs { a with matrices := some d } =
      match d.rest .XC with
      | .absent => .error .keyError
      | .none_ => .error .attributeError
      | .arr _ => .ok d := by
  unfold usesCallersDict at h
  unfold readSource
  dsimp only
  cases hm : strTruthy a.mitgridfile with
  | some f => rw [hm] at h; cases h
  | none =>
    dsimp only
    cases hx : strTruthy a.xgFile with
    | none => rfl
    | some x =>
      cases hy : strTruthy a.ygFile with
      | none => rfl
      | some y => rw [hm, hx, hy] at h; cases h

theorem readSource_file (fs : Files F) (a : RegridArgs F) (m : Option (MatDict F))
    (h : usesCallersDict a = false) :
    readSource fs { a with matrices := m } = readSource fs a := by
  unfold usesCallersDict at h
  unfold readSource
  dsimp only
  cases hm : strTruthy a.mitgridfile with
  | some f => rfl
  | none =>
    dsimp only
    cases hx : strTruthy a.xgFile with
    | none => rw [hm, hx] at h; cases h
    | some x =>
      cases hy : strTruthy a.ygFile with
      | none => rw [hm, hx, hy] at h; cases h
      | some y => rfl

/-- **C35**: turning `XG` and `YG` of the caller's grid by any number of quarter turns beforehand changes neither
whether the call ends nor its outcome. -/
theorem C35_orientation_independent (geod : Geod F) (fs : Files F) (a : RegridArgs F) (d : MatDict F)
    (hw : d.xg.WF) (k : Nat) (r : Py (Grid F × Int × Int)) :
    Spec.Ends geod fs a (Spec.rotated k d) r ↔ Spec.Ends geod fs a d r := by
  rw [ends_iff, ends_iff]
  cases hu : usesCallersDict a with
  | true =>
    rw [readSource_dict fs a _ hu, readSource_dict fs a _ hu]
    change (match (match d.rest .XC with
      | .absent => .error .keyError
      | .none_ => .error .attributeError
      | .arr _ => Except.ok (Spec.rotated k d) : Py (MatDict F)) with
      | .error e => r = .error e
      | .ok d => ∃ fuel s', regridXY geod a.lon1 a.lat1 a.lon2 a.lat2 a.lonSub a.latSub fuel (d.xg, d.yg) =
          some (s', r)) ↔ _
    cases d.rest .XC with
    | absent => exact Iff.rfl
    | none_ => exact Iff.rfl
    | arr m => exact regridXY_turns geod a.lon1 a.lat1 a.lon2 a.lat2 a.lonSub a.latSub k (d.xg, d.yg) hw r
  | false => rw [readSource_file fs a (some (Spec.rotated k d)) hu, readSource_file fs a (some d) hu]

/-- What a call leaves in the caller's dictionary. -/
theorem regrid_dict (geod : Geod F) (fs : Files F) (fuel : Nat) (a : RegridArgs F) (d : MatDict F)
    (hw : d.xg.WF) (dict' : Option (MatDict F)) (r : Py (Grid F × Int × Int))
    (h : regrid geod fs fuel { a with matrices := some d } = some (dict', r)) :
    ∃ k, k ≤ 3 ∧ dict' = some (Spec.rotated k d) := by
  have id0 : some d = some (Spec.rotated 0 d) := rfl
  unfold regrid at h
  cases hu : usesCallersDict a with
  | false =>
    have hu' : usesCallersDict { a with matrices := some d } = false := hu
    rw [hu'] at h
    refine ⟨0, by omega, ?_⟩
    cases hs : readSource fs { a with matrices := some d } with
    | error e => rw [hs] at h; cases h; rfl
    | ok d1 =>
      rw [hs] at h
      dsimp only at h
      split at h
      · cases h
      · cases h; rfl
  | true =>
    have hu' : usesCallersDict { a with matrices := some d } = true := hu
    rw [hu', readSource_dict fs a d hu] at h
    cases hx : d.rest .XC with
    | absent => rw [hx] at h; cases h; exact ⟨0, by omega, id0⟩
    | none_ => rw [hx] at h; cases h; exact ⟨0, by omega, id0⟩
    | arr m =>
      rw [hx] at h
      dsimp only at h
      rcases regridXY_cases geod a.lon1 a.lat1 a.lon2 a.lat2 a.lonSub a.latSub (d.xg, d.yg) hw with
        ⟨e, -, h'⟩ | ⟨c, -, ⟨-, h'⟩ | ⟨-, h'⟩ | ⟨-, k, c', hk, -, h'⟩⟩
      · rw [h' fuel] at h; cases h; exact ⟨0, by omega, id0⟩
      · rw [h' fuel] at h; cases h; exact ⟨0, by omega, id0⟩
      · rw [h' fuel] at h; cases h
      · cases hr : regridXY geod a.lon1 a.lat1 a.lon2 a.lat2 a.lonSub a.latSub fuel (d.xg, d.yg) with
        | none => rw [hr] at h; cases h
        | some sr =>
          have := regridXY_det _ _ _ _ _ _ _ _ _ _ _ _ hr (h' 0)
          subst this
          rw [hr] at h
          cases h
          exact ⟨k, hk, rfl⟩

/-- A sequence of calls sharing one dictionary object, with their outcomes, each call starting
from what the previous one left behind. -/
def Spec.RunsTo (geod : Geod F) (fs : Files F) :
    MatDict F → List (RegridArgs F × Py (Grid F × Int × Int)) → MatDict F → Prop
  | d, [], d' => d' = d
  | d, (a, r) :: rest, d' => ∃ fuel d1,
      regrid geod fs fuel { a with matrices := some d } = some (some d1, r) ∧ Spec.RunsTo geod fs d1 rest d'

theorem turns_add' (m n : Nat) (s : NArr F × NArr F) : turns m (turns n s) = turns (n + m) s := by
  induction n generalizing s with
  | zero => rw [Nat.zero_add]; rfl
  | succ n ih => rw [Nat.succ_add]; exact ih (turn s)

theorem rotated_rotated (m n : Nat) (d : MatDict F) :
    Spec.rotated m (Spec.rotated n d) = Spec.rotated (n + m) d := by
  unfold Spec.rotated
  dsimp only
  rw [show ((turns n (d.xg, d.yg)).1, (turns n (d.xg, d.yg)).2) = turns n (d.xg, d.yg) from rfl, turns_add']

/-- **C37**: in any sequence of calls sharing one dictionary, every call has the outcome it has on the original
dictionary. -/
theorem C37_history_independent (geod : Geod F) (fs : Files F) (d0 : MatDict F) (hw : d0.xg.WF)
    (calls : List (RegridArgs F × Py (Grid F × Int × Int))) (d' : MatDict F)
    (h : Spec.RunsTo geod fs d0 calls d') :
    ∀ a r, (a, r) ∈ calls → Spec.Ends geod fs a d0 r := by
  have gen : ∀ (calls : List (RegridArgs F × Py (Grid F × Int × Int))) (k : Nat) (d1 : MatDict F),
      d1 = Spec.rotated k d0 → Spec.RunsTo geod fs d1 calls d' →
      ∀ a r, (a, r) ∈ calls → Spec.Ends geod fs a d0 r := by
    intro calls
    induction calls with
    | nil => intro _ _ _ _ a r hm; cases hm
    | cons x rest ih =>
      intro k d1 hd1 hrun a r hm
      obtain ⟨a0, r0⟩ := x
      obtain ⟨fuel, d2, hc, hrest⟩ := hrun
      have hw1 : d1.xg.WF := by rw [hd1]; exact turns_wf k (d0.xg, d0.yg) hw
      rcases List.mem_cons.1 hm with heq | hmem
      · cases heq
        rw [← C35_orientation_independent geod fs a d0 hw k, ← hd1]
        exact ⟨fuel, _, hc⟩
      · obtain ⟨k', -, hk'⟩ := regrid_dict geod fs fuel a0 d1 hw1 _ _ hc
        have : d2 = Spec.rotated (k + k') d0 := by
          rw [← rotated_rotated, ← hd1]; exact Option.some.inj hk'
        exact ih _ _ this hrest a r hmem
  exact gen calls 0 d0 rfl h

/-- The outcome of a call on given data is unique, so C37 determines the outcome. -/
theorem C37_outcome_unique (geod : Geod F) (fs : Files F) (a : RegridArgs F) (d : MatDict F)
    (r r' : Py (Grid F × Int × Int)) (h : Spec.Ends geod fs a d r) (h' : Spec.Ends geod fs a d r') : r = r' := by
  rw [ends_iff] at h h'
  cases hs : readSource fs { a with matrices := some d } with
  | error e => rw [hs] at h h'; dsimp only at h h'; rw [h, h']
  | ok d1 =>
    rw [hs] at h h'
    dsimp only at h h'
    obtain ⟨_, _, h⟩ := h
    obtain ⟨_, _, h'⟩ := h'
    have := regridXY_det _ _ _ _ _ _ _ _ _ _ _ _ h h'
    simp only [Prod.mk.injEq] at this
    exact this.2

/-! ## C36: the caller's dictionary -/

/-- `m'` is `m` turned counter-clockwise by `k` quarter turns (`k` from 1 to 3). -/
def Spec.Turned (k : Nat) (m m' : Mat F) : Prop :=
  if k = 2 then m'.rows = m.rows ∧ m'.cols = m.cols ∧
    ∀ i j, i < m'.rows → j < m'.cols → m'.get i j = m.get (m.rows - 1 - i) (m.cols - 1 - j)
  else m'.rows = m.cols ∧ m'.cols = m.rows ∧
    ∀ i j, i < m'.rows → j < m'.cols → m'.get i j = if k = 1 then m.get j (m.cols - 1 - i) else m.get (m.rows - 1 - j) i

theorem turned_turns (k : Nat) (h1 : 1 ≤ k) (h3 : k ≤ 3) (s : NArr F × NArr F) :
    Spec.Turned k s.1.mat (turns k s).1.mat ∧ Spec.Turned k s.2.mat (turns k s).2.mat := by
  have hk : k = 1 ∨ k = 2 ∨ k = 3 := by omega
  rcases hk with rfl | rfl | rfl
  · exact ⟨⟨rfl, rfl, fun _ _ _ _ => rfl⟩, ⟨rfl, rfl, fun _ _ _ _ => rfl⟩⟩
  · exact ⟨⟨rfl, rfl, fun _ _ _ _ => rfl⟩, ⟨rfl, rfl, fun _ _ _ _ => rfl⟩⟩
  · have key : ∀ m : Mat F, Spec.Turned 3 m m.rot90.rot90.rot90 := by
      intro m
      refine ⟨rfl, rfl, fun i j hi hj => ?_⟩
      have hi : i < m.cols := hi
      show m.get (m.rows - 1 - j) (m.cols - 1 - (m.cols - 1 - i)) = m.get (m.rows - 1 - j) i
      congr 1
      omega
    exact ⟨key s.1.mat, key s.2.mat⟩

/-- A file argument is given. -/
def Spec.FileGiven (f : Option String) : Prop := ∃ name, f = some name ∧ name ≠ ""

/-- The grid is read from files: a binary one, or two text files. -/
def Spec.FromFiles (a : RegridArgs F) : Prop := Spec.FileGiven a.mitgridfile ∨ (Spec.FileGiven a.xgFile ∧ Spec.FileGiven a.ygFile)

theorem strTruthy_given (f : Option String) : (strTruthy f).isNone = false ↔ Spec.FileGiven f := by
  unfold strTruthy Spec.FileGiven
  cases f with
  | none => simp
  | some s =>
    by_cases h : s = ""
    · simp [h]
    · simp [h]

theorem usesCallersDict_iff (a : RegridArgs F) : usesCallersDict a = false ↔ Spec.FromFiles a := by
  unfold usesCallersDict Spec.FromFiles
  rw [← strTruthy_given, ← strTruthy_given, ← strTruthy_given]
  cases (strTruthy a.mitgridfile).isNone <;> cases (strTruthy a.xgFile).isNone <;> cases (strTruthy a.ygFile).isNone <;> decide

/-- **C36** is false: if the corner points are located in different rows and columns but the first one is not at
smaller `i` and larger `j`, a call on the caller's dictionary `d` leaves there `XG` and `YG` turned by 1, 2 or 3
quarter turns, depending on the position of the corners: never the arrays that were passed in; the other fields are not turned. -/
theorem C36_callers_grid_is_modified (geod : Geod F) (fs : Files F) (fuel : Nat) (a : RegridArgs F)
    (d : MatDict F) (hfiles : ¬ Spec.FromFiles a) (XC : Mat F) (hxc : d.rest .XC = .arr XC) (hw : d.xg.WF)
    (i1 j1 i2 j2 : Nat) (d1 d2 : F)
    (h1 : nearest geod a.lon1 a.lat1 d.xg d.yg = .ok (i1, j1, d1))
    (h2 : nearest geod a.lon2 a.lat2 d.xg d.yg = .ok (i2, j2, d2)) (hi : i1 ≠ i2) (hj : j1 ≠ j2)
    (hna : ¬ (i1 < i2 ∧ j2 < j1))
    (dict' : Option (MatDict F)) (r : Py (Grid F × Int × Int))
    (h : regrid geod fs fuel { a with matrices := some d } = some (dict', r)) :
    ∃ k d', dict' = some d' ∧ Spec.Turned k d.xg.mat d'.xg.mat ∧ Spec.Turned k d.yg.mat d'.yg.mat ∧
      ((k = 1 ∧ i2 < i1 ∧ j2 < j1) ∨ (k = 2 ∧ i2 < i1 ∧ j1 < j2) ∨ (k = 3 ∧ i1 < i2 ∧ j1 < j2)) ∧
      ¬ (d'.xg = d.xg ∧ d'.yg = d.yg) ∧ d'.rest = d.rest := by
  have hu : usesCallersDict a = true := by
    cases hc : usesCallersDict a with
    | true => rfl
    | false => exact absurd ((usesCallersDict_iff a).1 hc) hfiles
  have hl : locate geod a.lon1 a.lat1 a.lon2 a.lat2 (d.xg, d.yg) = .ok ((i1, j1), (i2, j2)) := by
    unfold locate; rw [h1, h2]; rfl
  have hu' : usesCallersDict { a with matrices := some d } = true := hu
  unfold regrid at h
  rw [hu', readSource_dict fs a d hu, hxc] at h
  dsimp only at h
  rcases regridXY_cases geod a.lon1 a.lat1 a.lon2 a.lat2 a.lonSub a.latSub (d.xg, d.yg) hw with
    ⟨e, he, -⟩ | ⟨c, hl', hcases⟩
  · rw [hl] at he; cases he
  rw [hl] at hl'; cases hl'
  rcases hcases with ⟨hd, -⟩ | ⟨ho, -⟩ | ⟨hdg, k, c', hk, hal, h'⟩
  · exfalso; dsimp only at hd; omega
  · exfalso
    rcases ho with ⟨ho, -⟩ | ⟨-, ho⟩ <;> simp only [Prod.mk.injEq] at ho <;> omega
  · cases hr : regridXY geod a.lon1 a.lat1 a.lon2 a.lat2 a.lonSub a.latSub fuel (d.xg, d.yg) with
    | none => rw [hr] at h; cases h
    | some sr =>
      have := regridXY_det _ _ _ _ _ _ _ _ _ _ _ _ hr (h' 0)
      subst this
      rw [hr] at h
      cases h
      have hne : turns k (d.xg, d.yg) ≠ (d.xg, d.yg) := by
        intro e
        have hlk := hal.2.2.1
        rw [e, hl] at hlk
        have ha := hal.2.1
        rw [← Except.ok.inj hlk, aligned_iff] at ha
        dsimp only at ha
        omega
      have hk1 : 1 ≤ k := by
        cases k with
        | zero => exact absurd rfl hne
        | succ k => omega
      obtain ⟨t1, t2⟩ := turned_turns k hk1 hk (d.xg, d.yg)
      refine ⟨k, _, rfl, t1, t2, ?_, fun hh => hne ?_, rfl⟩
      · have hk3 : k = 1 ∨ k = 2 ∨ k = 3 := by omega
        obtain ⟨d1', e1⟩ := diagonal_turn _ _ hdg
        have l1 := locate_turn_ok _ _ _ _ _ _ hw _ hl
        have w1 : (turn (d.xg, d.yg)).1.WF := NArr.rot90_wf hw
        obtain ⟨d2', e2⟩ := diagonal_turn _ _ d1'
        have l2 := locate_turn_ok _ _ _ _ _ _ w1 _ l1
        have w2 : (turn (turn (d.xg, d.yg))).1.WF := NArr.rot90_wf w1
        obtain ⟨d3', e3⟩ := diagonal_turn _ _ d2'
        have l3 := locate_turn_ok _ _ _ _ _ _ w2 _ l2
        have ha := hal.2.1
        have hlk := hal.2.2.1
        rcases hk3 with rfl | rfl | rfl
        · rw [show turns 1 (d.xg, d.yg) = turn (d.xg, d.yg) from rfl, l1] at hlk
          rw [← Except.ok.inj hlk, aligned_iff, e1] at ha
          dsimp only at ha
          omega
        · rw [show turns 2 (d.xg, d.yg) = turn (turn (d.xg, d.yg)) from rfl, l2] at hlk
          rw [← Except.ok.inj hlk, aligned_iff, e2, e1] at ha
          dsimp only at ha
          omega
        · rw [show turns 3 (d.xg, d.yg) = turn (turn (turn (d.xg, d.yg))) from rfl, l3] at hlk
          rw [← Except.ok.inj hlk, aligned_iff, e3, e2, e1] at ha
          dsimp only at ha
          omega
      · obtain ⟨x, y⟩ := hh
        dsimp only at x y
        exact Prod.ext x y

/-- **C36**, the part that holds: the caller's dictionary is unchanged if the data come from files, or the located
corner points are already in NW/SE position, or in one row or column; and fields other than `XG`, `YG` never change.
Missing for C36: the orientation of `XG` and `YG` in the other cases, where it is false
(`C36_callers_grid_is_modified`). -/
theorem C36_callers_grid_kept_partial (geod : Geod F) (fs : Files F) (fuel : Nat) (a : RegridArgs F)
    (d : MatDict F) (hw : d.xg.WF) (dict' : Option (MatDict F)) (r : Py (Grid F × Int × Int))
    (h : regrid geod fs fuel { a with matrices := some d } = some (dict', r)) :
    (∃ d', dict' = some d' ∧ d'.rest = d.rest) ∧
    (Spec.FromFiles a → dict' = some d) ∧
    (∀ (i1 j1 i2 j2 : Int) (d1 d2 : F), nearest geod a.lon1 a.lat1 d.xg d.yg = .ok (i1, j1, d1) →
      nearest geod a.lon2 a.lat2 d.xg d.yg = .ok (i2, j2, d2) →
      (i1 < i2 ∧ j2 < j1) ∨ i1 = i2 ∨ j1 = j2 → dict' = some d) := by
  refine ⟨?_, fun hu => ?_, fun i1 j1 i2 j2 d1 d2 h1 h2 hc => ?_⟩
  · obtain ⟨k, -, rfl⟩ := regrid_dict geod fs fuel a d hw _ _ h
    exact ⟨_, rfl, rfl⟩
  · have hu' : usesCallersDict { a with matrices := some d } = false := (usesCallersDict_iff a).2 hu
    unfold regrid at h
    rw [hu'] at h
    cases hs : readSource fs { a with matrices := some d } with
    | error e => rw [hs] at h; cases h; rfl
    | ok d1 =>
      rw [hs] at h
      dsimp only at h
      split at h
      · cases h
      · cases h; rfl
  · have hl : locate geod a.lon1 a.lat1 a.lon2 a.lat2 (d.xg, d.yg) = .ok ((i1, j1), (i2, j2)) := by
      unfold locate; rw [h1, h2]; rfl
    have key : ∀ s' r', regridXY geod a.lon1 a.lat1 a.lon2 a.lat2 a.lonSub a.latSub fuel (d.xg, d.yg) =
        some (s', r') → s' = (d.xg, d.yg) := by
      intro s' r' hr
      unfold regridXY at hr
      rw [hl] at hr
      dsimp only at hr
      by_cases hd : i1 = i2 ∨ j1 = j2
      · rw [if_pos hd] at hr; cases hr; rfl
      · rw [if_neg hd] at hr
        cases fuel with
        | zero => cases hr
        | succ n =>
          rw [align_stop _ _ _ _ _ _ _ _ ((aligned_iff _).2 (by dsimp only; omega))] at hr
          cases hr; rfl
    unfold regrid at h
    cases hu : usesCallersDict a with
    | true =>
      have hu' : usesCallersDict { a with matrices := some d } = true := hu
      rw [hu', readSource_dict fs a d hu] at h
      cases hx : d.rest .XC with
      | absent => rw [hx] at h; cases h; rfl
      | none_ => rw [hx] at h; cases h; rfl
      | arr m =>
        rw [hx] at h
        dsimp only at h
        cases hr : regridXY geod a.lon1 a.lat1 a.lon2 a.lat2 a.lonSub a.latSub fuel (d.xg, d.yg) with
        | none => rw [hr] at h; cases h
        | some sr =>
          obtain ⟨s', r'⟩ := sr
          have := key _ _ hr
          subst this
          rw [hr] at h
          cases h; rfl
    | false =>
      have hu' : usesCallersDict { a with matrices := some d } = false := hu
      rw [hu'] at h
      cases hs : readSource fs { a with matrices := some d } with
      | error e => rw [hs] at h; cases h; rfl
      | ok d1 =>
        rw [hs] at h
        dsimp only at h
        split at h
        · cases h
        · cases h; rfl

/-! ## C39: identity -/

/-- `(i,j)` is strictly closer to the query point than every other grid point, and within 1e10 m. -/
def Spec.UniqueNearest (geod : Geod F) (lon lat : F) (s : NArr F × NArr F) (i j : Nat) : Prop :=
  i < s.1.mat.rows ∧ j < s.1.mat.cols ∧
  PyFloat.lt (Spec.dist geod lon lat s.1.mat s.2.mat i j) PyFloat.c1e10 = true ∧
  ∀ i' j', i' < s.1.mat.rows → j' < s.1.mat.cols → (i', j') ≠ (i, j) →
    PyFloat.lt (Spec.dist geod lon lat s.1.mat s.2.mat i j) (Spec.dist geod lon lat s.1.mat s.2.mat i' j') = true

theorem nearest_unique [FloatOrder F] (geod : Geod F) (lon lat : F) (s : NArr F × NArr F) (hw : s.1.WF)
    (hs : Spec.SameShape s.1 s.2) (i j : Nat) (h : Spec.UniqueNearest geod lon lat s i j) :
    ∃ d, nearest geod lon lat s.1 s.2 = .ok (i, j, d) := by
  obtain ⟨hi, hj, hlt, hu⟩ := h
  obtain ⟨i', j', d, hn, hi', hj', rfl, -, hmin⟩ :=
    C10_nearest_is_closest geod lon lat s.1 s.2 hs hw ⟨i, j, hi, hj, hlt⟩
  by_cases he : (i', j') = (i, j)
  · cases he; exact ⟨_, hn⟩
  · have := hu i' j' hi' hj' he
    rw [hmin i j hi hj] at this; cases this

/-- **C39**: regridding a tile with query points whose unique nearest grid points are its NW `[0,-1]` and SE `[-1,0]`
corner points (in particular with these points themselves) and subscale 1 returns `XG` and `YG` unchanged and the tile's cell counts. -/
theorem C39_identity [FloatOrder F] [ZeroLaw F] (geod : Geod F) (fs : Files F) (a : RegridArgs F) (d : MatDict F)
    (hsrc : readSource fs a = .ok d) (hw : d.xg.WF) (hs : Spec.SameShape d.xg d.yg)
    (ni nj : Nat) (hr : d.xg.mat.rows = ni + 1) (hc : d.xg.mat.cols = nj + 1) (hni : 0 < ni) (hnj : 0 < nj)
    (hsub : a.lonSub = 1 ∧ a.latSub = 1)
    (u1 : Spec.UniqueNearest geod a.lon1 a.lat1 (d.xg, d.yg) 0 nj)
    (u2 : Spec.UniqueNearest geod a.lon2 a.lat2 (d.xg, d.yg) ni 0) (fuel : Nat) (hf : 4 ≤ fuel) :
    ∃ dict' g XG YG, regrid geod fs fuel a = some (dict', .ok (g, ni, nj)) ∧
      g .XG = .arr XG ∧ g .YG = .arr YG ∧ XG.Same d.xg.mat ∧ YG.Same d.yg.mat ∧
      Spec.Complete g ni nj := by
  obtain ⟨e1, n1⟩ := nearest_unique geod _ _ (d.xg, d.yg) hw hs _ _ u1
  obtain ⟨e2, n2⟩ := nearest_unique geod _ _ (d.xg, d.yg) hw hs _ _ u2
  obtain ⟨dict', g, ni', nj', h⟩ := C34_regrid_succeeds geod fs a d hsrc hw 0 nj ni 0 e1 e2 n1 n2 (by omega)
    (by omega) (by omega) (by omega) fuel hf
  obtain ⟨k, c, c', hk, hl, hdg, hal, -, -, i0, j0, p, q, ls, lt, hc', hp, hq, -, -, hls, hlt, hi, hj,
    hni', hnj', hcomp, XG, YG, x1, y1, hv⟩ := regrid_success geod fs fuel a d hsrc hw dict' g ni' nj' h
  have hcc : c = ((((0 : Nat) : Int), (nj : Int)), ((ni : Int), ((0 : Nat) : Int))) := by
    unfold locate at hl
    rw [n1, n2] at hl
    exact (Except.ok.inj hl).symm
  subst hcc
  obtain ⟨es, ec⟩ := alignsAfter_unique _ _ _ _ _ _ _ _ _ _ _ hal
    (alignsAfter_zero _ _ _ _ _ _ _ hdg hl ((aligned_iff _).2 (by dsimp only; omega)))
  rw [hc'] at ec
  simp only [Prod.mk.injEq] at ec
  obtain ⟨⟨ea, eb⟩, ⟨ed, ef⟩⟩ := ec
  obtain rfl : i0 = 0 := by omega
  obtain rfl : j0 = 0 := by omega
  obtain rfl : p = ni := by omega
  obtain rfl : q = nj := by omega
  obtain rfl : ls = 1 := by omega
  obtain rfl : lt = 1 := by omega
  rw [Nat.mul_one] at hni' hnj' hcomp
  rw [Nat.mul_one] at hcomp
  subst hni' hnj'
  rw [es] at hv
  obtain ⟨X', ex, xr, xc⟩ := hcomp .XG
  obtain ⟨Y', ey, yr, yc⟩ := hcomp .YG
  rw [x1] at ex; cases ex
  rw [y1] at ey; cases ey
  simp only [Spec.nrows, Spec.ncols] at xr xc yr yc
  refine ⟨dict', g, XG, YG, h, x1, y1, ⟨by omega, by omega, fun i j hi hj => ?_⟩,
    ⟨by have := hs.1; omega, by have := hs.2.1; omega, fun i j hi hj => ?_⟩, hcomp⟩
  · have := (hv i j (by omega) (by omega)).1
    rw [Nat.mul_one, Nat.mul_one, Nat.zero_add, Nat.zero_add] at this
    exact this
  · have := (hv i j (by omega) (by omega)).2
    rw [Nat.mul_one, Nat.mul_one, Nat.zero_add, Nat.zero_add] at this
    exact this

end regrid
end SG
