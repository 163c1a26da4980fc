import Verif.Props.RegridSource
/-! # C127: the ways of giving a grid to `regrid` agree

`regrid` takes its grid from a mitgrid file, from a pair of binary files, from a pair of csv files or from a dictionary
whose arrays may lie in memory in any order.  C38 says which source is used; here: what comes out depends on the
values only, as long as no query point is equally far from two nearest grid points. -/

set_option linter.unusedSectionVars false

namespace SG
variable {F : Type} [PyFloat F] [F64 F]

/-- The nearest grid point of a query point does not depend on the order in which the grid is searched: there is a
single one, or none within 1e10 m. -/
def Spec.Decided (geod : Geod F) (lon lat : F) (x y : Mat F) : Prop :=
  (∃ i j, i < x.rows ∧ j < x.cols ∧ PyFloat.lt (Spec.dist geod lon lat x y i j) PyFloat.c1e10 = true ∧
    ∀ i' j', i' < x.rows → j' < x.cols → (i', j') ≠ (i, j) →
      PyFloat.lt (Spec.dist geod lon lat x y i j) (Spec.dist geod lon lat x y i' j') = true) ∨
  ∀ i j, i < x.rows → j < x.cols → PyFloat.lt (Spec.dist geod lon lat x y i j) PyFloat.c1e10 = false

theorem Mat.Same.symm' {A B : Mat F} (h : A.Same B) : B.Same A :=
  ⟨h.1.symm, h.2.1.symm, fun i j hi hj => (h.2.2 i j (h.1 ▸ hi) (h.2.1 ▸ hj)).symm⟩

theorem Mat.Same.trans' {A B C : Mat F} (h : A.Same B) (h' : B.Same C) : A.Same C :=
  ⟨h.1.trans h'.1, h.2.1.trans h'.2.1, fun i j hi hj =>
    (h.2.2 i j hi hj).trans (h'.2.2 i j (h.1 ▸ hi) (h.2.1 ▸ hj))⟩

theorem Mat.Same.rot90' {A B : Mat F} (h : A.Same B) : A.rot90.Same B.rot90 := by
  refine ⟨h.2.1, h.1, fun i j hi hj => ?_⟩
  have hi' : i < A.cols := hi
  have hj' : j < A.rows := hj
  show A.get j (A.cols - 1 - i) = B.get j (B.cols - 1 - i)
  rw [← h.2.1]
  exact h.2.2 _ _ hj' (by omega)

/-- Two pairs of arrays with the same values, each visited completely. -/
structure Alike (s s' : NArr F × NArr F) : Prop where
  wf : s.1.WF
  wf' : s'.1.WF
  x : s.1.mat.Same s'.1.mat
  y : s.2.mat.Same s'.2.mat

theorem Alike.turn {s s' : NArr F × NArr F} (h : Alike s s') : Alike (turn s) (turn s') :=
  ⟨NArr.rot90_wf h.wf, NArr.rot90_wf h.wf', h.x.rot90', h.y.rot90'⟩

theorem align_alike (geod : Geod F) (lon1 lat1 lon2 lat2 : F) (fuel : Nat) (s s' : NArr F × NArr F) (c : Corners)
    (h : Alike s s') (hl : locate geod lon1 lat1 lon2 lat2 s = .ok c)
    (hl' : locate geod lon1 lat1 lon2 lat2 s' = .ok c) :
    (align geod lon1 lat1 lon2 lat2 fuel s c = none ∧ align geod lon1 lat1 lon2 lat2 fuel s' c = none) ∨
    ∃ t t' c', align geod lon1 lat1 lon2 lat2 fuel s c = some (t, .ok c') ∧
      align geod lon1 lat1 lon2 lat2 fuel s' c = some (t', .ok c') ∧ Alike t t' ∧
      Spec.SameShape t.1 t.2 ∧ InRange t.1.mat c'.1 ∧ InRange t.1.mat c'.2 := by
  induction fuel generalizing s s' c with
  | zero => exact .inl ⟨rfl, rfl⟩
  | succ n ih =>
    cases ha : aligned c with
    | true =>
      refine .inr ⟨s, s', c, align_stop _ _ _ _ _ _ _ _ ha, align_stop _ _ _ _ _ _ _ _ ha, h,
        locate_shapes _ _ _ _ _ _ _ hl, ?_⟩
      obtain ⟨h1, h2⟩ := locate_cases _ _ _ _ _ _ h.wf _ hl
      rw [aligned_iff] at ha
      unfold InRange at h1 h2 ⊢
      rcases h1 with h1 | h1 <;> rcases h2 with h2 | h2
      · rw [h1, h2] at ha; dsimp only at ha; omega
      · rw [h1] at ha; dsimp only at ha; omega
      · rw [h2] at ha; dsimp only at ha; omega
      · exact ⟨h1, h2⟩
    | false =>
      rw [align_turn _ _ _ _ _ _ _ _ h.wf hl ha, align_turn _ _ _ _ _ _ _ _ h.wf' hl' ha, ← h.x.2.1]
      refine ih _ _ _ h.turn (locate_turn_ok _ _ _ _ _ _ h.wf _ hl) ?_
      have := locate_turn_ok _ _ _ _ _ _ h.wf' _ hl'
      rwa [← h.x.2.1] at this

/-- Once the corners are found at the same place, the values decide. -/
theorem regridXY_alike (geod : Geod F) (lon1 lat1 lon2 lat2 : F) (lonSub latSub : Int) (fuel : Nat)
    (s s' : NArr F × NArr F) (h : Alike s s')
    (hl : locate geod lon1 lat1 lon2 lat2 s = locate geod lon1 lat1 lon2 lat2 s') :
    (regridXY geod lon1 lat1 lon2 lat2 lonSub latSub fuel s).map Prod.snd =
      (regridXY geod lon1 lat1 lon2 lat2 lonSub latSub fuel s').map Prod.snd := by
  unfold regridXY
  rw [← hl]
  cases hc : locate geod lon1 lat1 lon2 lat2 s with
  | error e => rfl
  | ok c =>
    dsimp only
    by_cases hd : c.1.1 = c.2.1 ∨ c.1.2 = c.2.2
    · rw [if_pos hd, if_pos hd]; rfl
    · rw [if_neg hd, if_neg hd]
      rcases align_alike geod lon1 lat1 lon2 lat2 fuel s s' c h hc (hl ▸ hc) with
        ⟨a, b⟩ | ⟨t, t', c', a, b, ht, hs, h1, h2⟩
      · rw [a, b]
      · rw [a, b]
        dsimp only [Option.map]
        rw [regridBlock_congr geod _ _ _ _ c' lonSub latSub ht.x ht.y hs.1.symm hs.2.1.symm h1 h2]

theorem nearest_decided [FloatOrder F] (geod : Geod F) (lon lat : F) (s s' : NArr F × NArr F) (h : Alike s s')
    (hd : Spec.SameShape s.1 s.2 → Spec.Decided geod lon lat s.1.mat s.2.mat) :
    (nearest geod lon lat s.1 s.2).map (fun r => (r.1, r.2.1)) =
      (nearest geod lon lat s'.1 s'.2).map (fun r => (r.1, r.2.1)) := by
  by_cases hs : Spec.SameShape s.1 s.2
  · have hs' : Spec.SameShape s'.1 s'.2 := by
      obtain ⟨a, b, c, d⟩ := hs
      exact ⟨by rw [← h.x.1, ← h.y.1, a], by rw [← h.x.2.1, ← h.y.2.1, b], by rw [← h.x.1]; exact c,
        by rw [← h.x.2.1]; exact d⟩
    have key : ∀ i j, i < s.1.mat.rows → j < s.1.mat.cols →
        Spec.dist geod lon lat s'.1.mat s'.2.mat i j = Spec.dist geod lon lat s.1.mat s.2.mat i j := by
      intro i j hi hj
      unfold Spec.dist
      rw [h.x.2.2 i j hi hj, h.y.2.2 i j (hs.1 ▸ hi) (hs.2.1 ▸ hj)]
    rcases hd hs with ⟨i, j, hi, hj, h1, h2⟩ | hn
    · obtain ⟨d, e⟩ := nearest_unique geod lon lat s h.wf hs i j ⟨hi, hj, h1, h2⟩
      obtain ⟨d', e'⟩ := nearest_unique geod lon lat s' h.wf' hs' i j
        ⟨h.x.1 ▸ hi, h.x.2.1 ▸ hj, by rw [key i j hi hj]; exact h1, fun i' j' hi' hj' hne => by
          have a : i' < s.1.mat.rows := by rw [h.x.1]; exact hi'
          have b : j' < s.1.mat.cols := by rw [h.x.2.1]; exact hj'
          rw [key i j hi hj, key i' j' a b]; exact h2 i' j' a b hne⟩
      rw [e, e']; rfl
    · rw [(C12_sentinel_iff geod lon lat s.1 s.2 hs h.wf).2 hn,
        (C12_sentinel_iff geod lon lat s'.1 s'.2 hs' h.wf').2 (fun i j hi hj => by
          have a : i < s.1.mat.rows := by rw [h.x.1]; exact hi
          have b : j < s.1.mat.cols := by rw [h.x.2.1]; exact hj
          rw [key i j a b]; exact hn i j a b)]
  · have hs' : ¬ Spec.SameShape s'.1 s'.2 := by
      rintro ⟨a, b, c, d⟩
      exact hs ⟨by rw [h.x.1, h.y.1, a], by rw [h.x.2.1, h.y.2.1, b], by rw [h.x.1]; exact c,
        by rw [h.x.2.1]; exact d⟩
    rw [((C12_valueError_iff geod lon lat s.1 s.2).1).2 hs, ((C12_valueError_iff geod lon lat s'.1 s'.2).1).2 hs']

theorem locate_map (geod : Geod F) (lon1 lat1 lon2 lat2 : F) (s s' : NArr F × NArr F)
    (h1 : (nearest geod lon1 lat1 s.1 s.2).map (fun r => (r.1, r.2.1)) =
      (nearest geod lon1 lat1 s'.1 s'.2).map (fun r => (r.1, r.2.1)))
    (h2 : (nearest geod lon2 lat2 s.1 s.2).map (fun r => (r.1, r.2.1)) =
      (nearest geod lon2 lat2 s'.1 s'.2).map (fun r => (r.1, r.2.1))) :
    locate geod lon1 lat1 lon2 lat2 s = locate geod lon1 lat1 lon2 lat2 s' := by
  have key : ∀ t : NArr F × NArr F, locate geod lon1 lat1 lon2 lat2 t = (do
      let nw ← (nearest geod lon1 lat1 t.1 t.2).map (fun r => (r.1, r.2.1))
      let se ← (nearest geod lon2 lat2 t.1 t.2).map (fun r => (r.1, r.2.1))
      return (nw, se)) := by
    intro t
    unfold locate
    cases nearest geod lon1 lat1 t.1 t.2 with
    | error e => rfl
    | ok r =>
      cases nearest geod lon2 lat2 t.1 t.2 with
      | error e => rfl
      | ok r' => rfl
  rw [key s, key s', h1, h2]

/-- Arrays with the same values in the same memory order: the same nearest points. -/
theorem nearest_order (geod : Geod F) (lon lat : F) (s s' : NArr F × NArr F) (h : Alike s s')
    (ho : s.1.order = s'.1.order) :
    nearest geod lon lat s.1 s.2 = nearest geod lon lat s'.1 s'.2 := by
  unfold nearest
  rw [← h.x.1, ← h.x.2.1, ← h.y.1, ← h.y.2.1]
  by_cases h1 : s.1.mat.rows ≠ s.2.mat.rows ∨ s.1.mat.cols ≠ s.2.mat.cols
  · rw [if_pos h1, if_pos h1]
  rw [if_neg h1, if_neg h1]
  by_cases h2 : s.1.mat.rows * s.1.mat.cols = 0
  · rw [if_pos h2, if_pos h2]
  rw [if_neg h2, if_neg h2, ← ho]
  have key : ∀ l : List (Nat × Nat), (∀ p ∈ l, p.1 < s.1.mat.rows ∧ p.2 < s.1.mat.cols) → ∀ r,
      l.foldl (nearestStep geod lon lat s.1.mat s.2.mat) r = l.foldl (nearestStep geod lon lat s'.1.mat s'.2.mat) r := by
    intro l
    induction l with
    | nil => intro _ r; rfl
    | cons p l ih =>
      intro hl r
      obtain ⟨a, b⟩ := hl p (by simp)
      have e : nearestStep geod lon lat s.1.mat s.2.mat r p = nearestStep geod lon lat s'.1.mat s'.2.mat r p := by
        unfold nearestStep
        rw [h.x.2.2 _ _ a b, h.y.2.2 _ _ (by omega) (by omega)]
      rw [List.foldl_cons, List.foldl_cons, e]
      exact ih (fun q hq => hl q (by simp [hq])) _
  rw [key _ (fun p hp => (h.wf.mem p).1 hp)]

theorem outcome_alike (geod : Geod F) (fs fs' : Files F) (fuel : Nat) (a a' : RegridArgs F) (d d' : MatDict F)
    (h : readSource fs a = .ok d) (h' : readSource fs' a' = .ok d')
    (hq : (a'.lon1, a'.lat1, a'.lon2, a'.lat2, a'.lonSub, a'.latSub) =
      (a.lon1, a.lat1, a.lon2, a.lat2, a.lonSub, a.latSub))
    (hs : Alike (d.xg, d.yg) (d'.xg, d'.yg))
    (hl : locate geod a.lon1 a.lat1 a.lon2 a.lat2 (d.xg, d.yg) =
      locate geod a.lon1 a.lat1 a.lon2 a.lat2 (d'.xg, d'.yg)) :
    Spec.outcome (regrid geod fs fuel a) = Spec.outcome (regrid geod fs' fuel a') := by
  simp only [Prod.mk.injEq] at hq
  obtain ⟨q1, q2, q3, q4, q5, q6⟩ := hq
  have hk := regridXY_alike geod a.lon1 a.lat1 a.lon2 a.lat2 a.lonSub a.latSub fuel _ _ hs hl
  unfold regrid
  rw [h, h', q1, q2, q3, q4, q5, q6]
  dsimp only
  cases h1 : regridXY geod a.lon1 a.lat1 a.lon2 a.lat2 a.lonSub a.latSub fuel (d.xg, d.yg) with
  | none =>
    cases h2 : regridXY geod a.lon1 a.lat1 a.lon2 a.lat2 a.lonSub a.latSub fuel (d'.xg, d'.yg) with
    | none => rfl
    | some sr => rw [h1, h2] at hk; cases hk
  | some sr =>
    cases h2 : regridXY geod a.lon1 a.lat1 a.lon2 a.lat2 a.lonSub a.latSub fuel (d'.xg, d'.yg) with
    | none => rw [h1, h2] at hk; cases hk
    | some sr' =>
      rw [h1, h2] at hk
      have : sr.2 = sr'.2 := Option.some.inj hk
      unfold Spec.outcome
      show some sr.2 = some sr'.2
      rw [this]

/-! ## Sources -/

/-- The bytes of a binary file hold the array `m`, column by column. -/
def Spec.FileHolds (bytes : List Byte) (m : Mat F) : Prop :=
  bytes.length / 8 = m.rows * m.cols ∧
  ∀ i j, i < m.rows → j < m.cols → Spec.doubleAt F bytes (i + j * m.rows) = some (m.get i j)

/-- The call reads a mitgrid file, and `read_mitgridfile` returns the arrays `x` and `y` (its `XG` and `YG`). -/
def Spec.ByMitgrid (fs : Files F) (a : RegridArgs F) (x y : Mat F) : Prop :=
  ∃ (f : String) (ni nj : Nat) (bytes : List Byte) (g : Grid F) (x' y' : Mat F), Spec.Given a.mitgridfile f ∧
    Spec.GivenN a.ni ni ∧ Spec.GivenN a.nj nj ∧ fs.bin f = some bytes ∧
    (readMitgrid bytes ni nj a.strict : Py (Grid F)) = .ok g ∧
    g .XG = .arr x' ∧ g .YG = .arr y' ∧ x'.Same x ∧ y'.Same y

/-- The call reads two binary files that hold `x` and `y`, of `ni+1` by `nj+1` points. -/
def Spec.ByBinary (fs : Files F) (a : RegridArgs F) (x y : Mat F) : Prop :=
  ∃ (xf yf : String) (xb yb : List Byte), (∀ f, ¬ Spec.Given a.mitgridfile f) ∧
    Spec.Given a.xgFile xf ∧ Spec.Given a.ygFile yf ∧
    ¬ (Spec.HasCsvExtension xf ∧ Spec.HasCsvExtension yf) ∧
    fs.bin xf = some xb ∧ fs.bin yf = some yb ∧ Spec.FileHolds xb x ∧ Spec.FileHolds yb y ∧
    ∃ ni nj, Spec.GivenN a.ni ni ∧ Spec.GivenN a.nj nj ∧
      x.rows = ni + 1 ∧ x.cols = nj + 1 ∧ y.rows = ni + 1 ∧ y.cols = nj + 1

/-- The call reads two csv files that parse to `x` and `y` (with some counts, which are not looked at). -/
def Spec.ByCsv (fs : Files F) (a : RegridArgs F) (x y : Mat F) : Prop :=
  ∃ (xf yf : String), (∀ f, ¬ Spec.Given a.mitgridfile f) ∧ Spec.Given a.xgFile xf ∧ Spec.Given a.ygFile yf ∧
    Spec.HasCsvExtension xf ∧ Spec.HasCsvExtension yf ∧
    (∃ ni, Spec.GivenN a.ni ni) ∧ (∃ nj, Spec.GivenN a.nj nj) ∧
    ∃ x' y', fs.csv xf = .ok x' ∧ fs.csv yf = .ok y' ∧ x'.Same x ∧ y'.Same y

/-- The call names no files; its dictionary has the arrays `x` and `y`, in whatever memory order, and cell centres. -/
def Spec.ByDict (a : RegridArgs F) (x y : Mat F) : Prop :=
  ∃ (d : MatDict F), (∀ f, ¬ Spec.Given a.mitgridfile f) ∧
    ((∀ x, ¬ Spec.Given a.xgFile x) ∨ ∀ y, ¬ Spec.Given a.ygFile y) ∧ a.matrices = some d ∧
    d.xg.WF ∧ d.xg.mat.Same x ∧ d.yg.mat.Same y ∧ ∃ XC, d.rest .XC = .arr XC

/-- The call is given the grid `x`, `y` in one of the four ways. -/
def Spec.Presents (fs : Files F) (a : RegridArgs F) (x y : Mat F) : Prop :=
  Spec.ByMitgrid fs a x y ∨ Spec.ByBinary fs a x y ∨ Spec.ByCsv fs a x y ∨ Spec.ByDict a x y

theorem byMitgrid_reads {fs : Files F} {a : RegridArgs F} {x y : Mat F} (h : Spec.ByMitgrid fs a x y) :
    ∃ d x' y', readSource fs a = .ok d ∧ d.xg = .ofF x' ∧ d.yg = .ofF y' ∧ x'.Same x ∧ y'.Same y := by
  obtain ⟨f, ni, nj, bytes, g, x', y', hf, hni, hnj, hb, hg, hx, hy, sx, sy⟩ := h
  have hr := readSource_mitgrid fs a f hf
  rw [natTruthy_some hni, natTruthy_some hnj] at hr
  dsimp only at hr
  unfold Files.open at hr
  rw [hb] at hr
  dsimp only at hr
  rw [Py.ok_bind, hg, Py.ok_bind] at hr
  unfold Grid.arr at hr
  rw [hx, hy] at hr
  exact ⟨⟨.ofF x', .ofF y', g⟩, x', y', hr, rfl, rfl, sx, sy⟩

theorem reshape_holds {b : List Byte} {m : Mat F} (h : Spec.FileHolds b m) :
    ∃ m' : Mat F, reshapeF (fromfile b : List F) m.rows m.cols = .ok m' ∧ m'.Same m := by
  obtain ⟨hl, hv⟩ := h
  unfold reshapeF
  rw [fromfile_length, if_pos hl]
  refine ⟨_, rfl, rfl, rfl, fun i j hi hj => ?_⟩
  have hi' : i < m.rows := hi
  have hj' : j < m.cols := hj
  have hlt : i + j * m.rows < m.rows * m.cols := by
    have : (j + 1) * m.rows ≤ m.cols * m.rows := Nat.mul_le_mul_right _ hj'
    rw [Nat.mul_comm m.rows, Nat.add_mul] at *
    omega
  have hl' : i + j * m.rows < (fromfile b : List F).length := by rw [fromfile_length]; omega
  have := hv i j hi' hj'
  show (fromfile b : List F).getD (i + j * m.rows) Arith.zero = m.get i j
  rw [List.getD_eq_getElem?_getD, fromfile_get]
  show (Spec.doubleAt F b (i + j * m.rows)).getD _ = _
  rw [this]
  rfl

theorem byBinary_reads {fs : Files F} {a : RegridArgs F} {x y : Mat F} (h : Spec.ByBinary fs a x y) :
    ∃ d x' y', readSource fs a = .ok d ∧ d.xg = .ofF x' ∧ d.yg = .ofF y' ∧ x'.Same x ∧ y'.Same y := by
  obtain ⟨xf, yf, xb, yb, hf, hx, hy, hc, hxb, hyb, fx, fy, ni, nj, hni, hnj, r1, r2, r3, r4⟩ := h
  obtain ⟨x', e1, s1⟩ := reshape_holds fx
  obtain ⟨y', e2, s2⟩ := reshape_holds fy
  rw [r1, r2] at e1
  rw [r3, r4] at e2
  have h := readSource_xy fs a hf xf yf hx hy
  have hnc : (isCsv xf && isCsv yf) = false := by
    cases hb : (isCsv xf && isCsv yf) with
    | false => rfl
    | true =>
      rw [Bool.and_eq_true, isCsv_iff, isCsv_iff] at hb
      exact absurd hb hc
  rw [natTruthy_some hni, natTruthy_some hnj] at h
  dsimp only at h
  rw [hnc] at h
  unfold Files.open at h
  rw [hxb, hyb] at h
  dsimp only at h
  rw [if_neg (by simp), Py.ok_bind, e1, Py.ok_bind, Py.ok_bind, e2, Py.ok_bind] at h
  exact ⟨⟨.ofF x', .ofF y', Grid.allNone⟩, x', y', h, rfl, rfl, s1, s2⟩

theorem presents_reads {fs : Files F} {a : RegridArgs F} {x y : Mat F} (h : Spec.Presents fs a x y) :
    ∃ d, readSource fs a = .ok d ∧ d.xg.WF ∧ d.xg.mat.Same x ∧ d.yg.mat.Same y := by
  rcases h with h | h | h | h
  · obtain ⟨d, x', y', hr, hx, hy, sx, sy⟩ := byMitgrid_reads h
    exact ⟨d, hr, hx ▸ NArr.ofF_wf x', by rw [hx]; exact sx, by rw [hy]; exact sy⟩
  · obtain ⟨d, x', y', hr, hx, hy, sx, sy⟩ := byBinary_reads h
    exact ⟨d, hr, hx ▸ NArr.ofF_wf x', by rw [hx]; exact sx, by rw [hy]; exact sy⟩
  · obtain ⟨xf, yf, hf, hx, hy, hcx, hcy, ⟨ni, hni⟩, ⟨nj, hnj⟩, x', y', hxx, hyy, sx, sy⟩ := h
    have h := readSource_xy fs a hf xf yf hx hy
    rw [natTruthy_some hni, natTruthy_some hnj] at h
    dsimp only at h
    rw [(isCsv_iff xf).2 hcx, (isCsv_iff yf).2 hcy, hxx, hyy] at h
    exact ⟨⟨.ofC x', .ofC y', Grid.allNone⟩, h, NArr.ofC_wf x', sx, sy⟩
  · obtain ⟨d, hf, hxy, hd, hw, sx, sy, XC, hXC⟩ := h
    refine ⟨d, ?_, hw, sx, sy⟩
    unfold readSource
    rw [strTruthy_none hf]
    rcases hxy with h | h <;> rw [strTruthy_none h]
    · dsimp only; rw [hd]; dsimp only; rw [hXC]
    · cases strTruthy a.xgFile <;> dsimp only <;> rw [hd] <;> dsimp only <;> rw [hXC]

/-- **C127**: two `regrid` calls that are given the same grid points, each in any of the four ways (mitgrid file, binary
files, csv files, dictionary), with the same corner points and subscales, have the same outcome: the same grid and
counts, the same exception, or both never return.  It is assumed of each corner point that it has a single nearest grid
point, or none. -/
theorem C127_sources_agree [FloatOrder F] (geod : Geod F) (fs fs' : Files F) (fuel : Nat) (a a' : RegridArgs F)
    (x y : Mat F) (h : Spec.Presents fs a x y) (h' : Spec.Presents fs' a' x y)
    (hq : (a'.lon1, a'.lat1, a'.lon2, a'.lat2, a'.lonSub, a'.latSub) =
      (a.lon1, a.lat1, a.lon2, a.lat2, a.lonSub, a.latSub))
    (d1 : Spec.Decided geod a.lon1 a.lat1 x y) (d2 : Spec.Decided geod a.lon2 a.lat2 x y) :
    Spec.outcome (regrid geod fs fuel a) = Spec.outcome (regrid geod fs' fuel a') := by
  obtain ⟨d, hr, hw, sx, sy⟩ := presents_reads h
  obtain ⟨d', hr', hw', sx', sy'⟩ := presents_reads h'
  have hal : Alike (d.xg, d.yg) (d'.xg, d'.yg) := ⟨hw, hw', sx.trans' sx'.symm', sy.trans' sy'.symm'⟩
  have tr : ∀ lon lat, Spec.Decided geod lon lat x y → Spec.SameShape d.xg d.yg →
      Spec.Decided geod lon lat d.xg.mat d.yg.mat := by
    intro lon lat hd hs
    have key : ∀ i j, i < x.rows → j < x.cols →
        Spec.dist geod lon lat d.xg.mat d.yg.mat i j = Spec.dist geod lon lat x y i j := by
      intro i j hi hj
      unfold Spec.dist
      rw [sx.symm'.2.2 i j hi hj, sy.symm'.2.2 i j (by rw [← sy.1, ← hs.1, sx.1]; exact hi) (by rw [← sy.2.1, ← hs.2.1, sx.2.1]; exact hj)]
    unfold Spec.Decided
    rw [sx.1, sx.2.1]
    rcases hd with ⟨i, j, hi, hj, h1, h2⟩ | hn
    · refine .inl ⟨i, j, hi, hj, by rw [key i j hi hj]; exact h1, fun i' j' hi' hj' hne => ?_⟩
      rw [key i j hi hj, key i' j' hi' hj']
      exact h2 i' j' hi' hj' hne
    · exact .inr fun i j hi hj => by rw [key i j hi hj]; exact hn i j hi hj
  exact outcome_alike geod fs fs' fuel a a' d d' hr hr' hq hal
    (locate_map geod _ _ _ _ _ _ (nearest_decided geod _ _ _ _ hal (tr _ _ d1))
      (nearest_decided geod _ _ _ _ hal (tr _ _ d2)))

/-- **C127**, binary sources: a mitgrid file and binary files are laid out alike in memory, so there the outcome is the same
also when nearest grid points are equally far. -/
theorem C127_binary_agree (geod : Geod F) (fs fs' : Files F) (fuel : Nat) (a a' : RegridArgs F)
    (x y : Mat F) (h : Spec.ByMitgrid fs a x y ∨ Spec.ByBinary fs a x y)
    (h' : Spec.ByMitgrid fs' a' x y ∨ Spec.ByBinary fs' a' x y)
    (hq : (a'.lon1, a'.lat1, a'.lon2, a'.lat2, a'.lonSub, a'.latSub) =
      (a.lon1, a.lat1, a.lon2, a.lat2, a.lonSub, a.latSub)) :
    Spec.outcome (regrid geod fs fuel a) = Spec.outcome (regrid geod fs' fuel a') := by
  have key : ∀ {fs : Files F} {a : RegridArgs F}, Spec.ByMitgrid fs a x y ∨ Spec.ByBinary fs a x y →
      ∃ d x' y', readSource fs a = .ok d ∧ d.xg = .ofF x' ∧ d.yg = .ofF y' ∧ x'.Same x ∧ y'.Same y := by
    intro fs a h
    rcases h with h | h
    · exact byMitgrid_reads h
    · exact byBinary_reads h
  obtain ⟨d, x1, y1, hr, hx, hy, sx, sy⟩ := key h
  obtain ⟨d', x2, y2, hr', hx', hy', sx', sy'⟩ := key h'
  have hal : Alike (d.xg, d.yg) (d'.xg, d'.yg) := by
    rw [hx, hx', hy, hy']
    exact ⟨NArr.ofF_wf _, NArr.ofF_wf _, sx.trans' sx'.symm', sy.trans' sy'.symm'⟩
  have ho : d.xg.order = d'.xg.order := by
    rw [hx, hx']
    unfold NArr.ofF
    dsimp only
    rw [sx.1, sx.2.1, sx'.1, sx'.2.1]
  exact outcome_alike geod fs fs' fuel a a' d d' hr hr' hq hal
    (locate_map geod _ _ _ _ _ _ (by rw [nearest_order geod _ _ _ _ hal ho])
      (by rw [nearest_order geod _ _ _ _ hal ho]))

/-! ## Examples -/

namespace LayoutExample

/-- Column by column. -/
def bytesOf (m : Mat Toy) : List Byte := (flattenF m).flatMap fun v => beBytes (F64.toBits v)

/-- A complete grid of 2 by 1 cells with corner points `x`, `y`. -/
def grid (x y : Mat Toy) : Grid Toy := fun f =>
  .arr (if f = .XG then x else if f = .YG then y else Mat.full (Spec.nrows f 2) (Spec.ncols f 1) 0)

/-- A tile of 2 by 1 cells in files of every kind. -/
def files (x y : Mat Toy) : Files Toy where
  bin n := if n = "x.bin" then some (bytesOf x) else if n = "y.bin" then some (bytesOf y) else
    if n = "t.mitgrid" then some (writeMitgrid [] (grid x y) 2 1).1 else none
  csv n := if n = "x.csv" then .ok x else if n = "y.csv" then .ok y else .error .ioError

/-- Calls with corner points (0,10) and (20,0), subscales 1 and 2, on files of 2 by 1 cells. -/
def byCsv : RegridArgs Toy := exArgsCsv
def byBin : RegridArgs Toy := { exArgsCsv with xgFile := some "x.bin", ygFile := some "y.bin" }
def byMitgrid : RegridArgs Toy := { exArgsCsv with mitgridfile := some "t.mitgrid" }

theorem csv_ok : Spec.ByCsv (files exDict.xg.mat exDict.yg.mat) byCsv exDict.xg.mat exDict.yg.mat :=
  ⟨"x.csv", "y.csv", fun f h => h.2 (Option.some.inj h.1).symm, ⟨rfl, by decide⟩, ⟨rfl, by decide⟩,
    (isCsv_iff _).1 (by decide), (isCsv_iff _).1 (by decide), ⟨2, rfl, by decide⟩, ⟨1, rfl, by decide⟩, _, _, rfl, rfl,
    ⟨rfl, rfl, fun _ _ _ _ => rfl⟩, ⟨rfl, rfl, fun _ _ _ _ => rfl⟩⟩

theorem holds (m : Mat Toy) (hr : m.rows = 3) (hc : m.cols = 2)
    (h : ((List.range 3).all fun i => (List.range 2).all fun j =>
      Spec.doubleAt Toy (bytesOf m) (i + j * 3) == some (m.get i j)) = true)
    (hl : (bytesOf m).length / 8 = 6) : Spec.FileHolds (bytesOf m) m := by
  refine ⟨by rw [hl, hr, hc], fun i j hi hj => ?_⟩
  rw [List.all_eq_true] at h
  have h1 := h i (List.mem_range.2 (hr ▸ hi))
  rw [List.all_eq_true] at h1
  have h2 := h1 j (List.mem_range.2 (hc ▸ hj))
  rw [hr]
  exact beq_iff_eq.1 h2

set_option maxRecDepth 40000 in
theorem bin_ok : Spec.ByBinary (files exDict.xg.mat exDict.yg.mat) byBin exDict.xg.mat exDict.yg.mat :=
  ⟨"x.bin", "y.bin", _, _, fun f h => h.2 (Option.some.inj h.1).symm, ⟨rfl, by decide⟩, ⟨rfl, by decide⟩,
    by rw [← isCsv_iff, ← isCsv_iff]; decide, rfl, rfl, holds _ rfl rfl (by decide +kernel) (by decide +kernel),
    holds _ rfl rfl (by decide +kernel) (by decide +kernel), 2, 1, ⟨rfl, by decide⟩, ⟨rfl, by decide⟩, rfl, rfl, rfl, rfl⟩

theorem dict_ok : Spec.ByDict (exArgs 0 10 20 0 1 2) exDict.xg.mat exDict.yg.mat :=
  ⟨exDict, (fun _ h => by cases h.1), .inl (fun _ h => by cases h.1), rfl, NArr.ofC_wf _,
    ⟨rfl, rfl, fun _ _ _ _ => rfl⟩, ⟨rfl, rfl, fun _ _ _ _ => rfl⟩, _, rfl⟩

set_option maxRecDepth 40000 in
theorem mitgrid_ok : Spec.ByMitgrid (files exDict.xg.mat exDict.yg.mat) byMitgrid exDict.xg.mat exDict.yg.mat := by
  have hg : Spec.Complete (grid exDict.xg.mat exDict.yg.mat) 2 1 := by
    intro f
    cases f <;> exact ⟨_, rfl, rfl, rfl⟩
  obtain ⟨bytes, g', hw, hr, hs⟩ := C01_round_trip (by decide) [] _ 2 1 false hg
  have hx := hs .XG
  have hy := hs .YG
  cases gx : g' .XG with
  | arr x' =>
    cases gy : g' .YG with
    | arr y' =>
      rw [gx] at hx
      rw [gy] at hy
      have hb : (files exDict.xg.mat exDict.yg.mat).bin "t.mitgrid" = some bytes :=
        congrArg (fun r : List Byte × Py Unit => some r.1) hw
      exact ⟨"t.mitgrid", 2, 1, bytes, g', x', y', ⟨rfl, by decide⟩, ⟨rfl, by decide⟩, ⟨rfl, by decide⟩, hb, hr, gx, gy,
        Mat.Same.symm' hx, Mat.Same.symm' hy⟩
    | none_ => rw [gy] at hy; exact hy.elim
    | absent => rw [gy] at hy; exact hy.elim
  | none_ => rw [gx] at hx; exact hx.elim
  | absent => rw [gx] at hx; exact hx.elim

theorem decided (lon lat : Toy) (i j : Nat) (hi : i < 3) (hj : j < 2)
    (h0 : PyFloat.lt (Spec.dist Toy.geod lon lat exDict.xg.mat exDict.yg.mat i j) PyFloat.c1e10 = true)
    (h : ((List.range 3).all fun i' => (List.range 2).all fun j' => (i', j') == (i, j) ||
      PyFloat.lt (Spec.dist Toy.geod lon lat exDict.xg.mat exDict.yg.mat i j)
        (Spec.dist Toy.geod lon lat exDict.xg.mat exDict.yg.mat i' j')) = true) :
    Spec.Decided Toy.geod lon lat exDict.xg.mat exDict.yg.mat := by
  refine .inl ⟨i, j, hi, hj, h0, fun i' j' hi' hj' hne => ?_⟩
  rw [List.all_eq_true] at h
  have h1 := h i' (List.mem_range.2 hi')
  rw [List.all_eq_true] at h1
  have h2 := h1 j' (List.mem_range.2 hj')
  rw [Bool.or_eq_true, beq_iff_eq] at h2
  exact h2.resolve_left hne

/-- the mitgrid file and the binary files -/
example : Spec.outcome (regrid Toy.geod (files exDict.xg.mat exDict.yg.mat) 4 byMitgrid) =
    Spec.outcome (regrid Toy.geod (files exDict.xg.mat exDict.yg.mat) 4 byBin) :=
  C127_binary_agree Toy.geod _ _ 4 byMitgrid byBin _ _ (.inl mitgrid_ok) (.inr bin_ok) rfl

/-- csv files, binary files and the dictionary give the same grid (of 2 by 2 cells, see `RegridSource`). -/
example : Spec.outcome (regrid Toy.geod (files exDict.xg.mat exDict.yg.mat) 4 byCsv) =
      Spec.outcome (regrid Toy.geod (files exDict.xg.mat exDict.yg.mat) 4 byBin) ∧
    Spec.outcome (regrid Toy.geod (files exDict.xg.mat exDict.yg.mat) 4 byCsv) =
      Spec.outcome (regrid Toy.geod exFiles 4 (exArgs 0 10 20 0 1 2)) := by
  have d1 : Spec.Decided Toy.geod 0 10 exDict.xg.mat exDict.yg.mat :=
    decided 0 10 0 1 (by decide) (by decide) (by decide +kernel) (by decide +kernel)
  have d2 : Spec.Decided Toy.geod 20 0 exDict.xg.mat exDict.yg.mat :=
    decided 20 0 2 0 (by decide) (by decide) (by decide +kernel) (by decide +kernel)
  exact ⟨C127_sources_agree Toy.geod _ _ 4 byCsv byBin _ _ (.inr (.inr (.inl csv_ok))) (.inr (.inl bin_ok)) rfl d1 d2,
    C127_sources_agree Toy.geod _ _ 4 byCsv _ _ _ (.inr (.inr (.inl csv_ok))) (.inr (.inr (.inr dict_ok))) rfl d1 d2⟩

/-- A tile that lies askew: its points `[0,1]` and `[1,0]`, (8,4) and (8,-4), are equally far from (8,0). -/
def tieX : Mat Toy := ⟨3, 2, fun i j => Toy.ofInt (8 * (i + j))⟩
def tieY : Mat Toy := ⟨3, 2, fun i j => Toy.ofInt (4 * (j - i))⟩

end LayoutExample

open LayoutExample in
set_option maxRecDepth 40000 in
/-- **C127**, ties: the assumption cannot be dropped.  With two nearest points equally far, the same values in csv files give a
grid where binary files give an exception. -/
theorem C127_ties_matter : ∃ (fs : Files Toy) (a a' : RegridArgs Toy) (x y : Mat Toy),
    Spec.ByCsv fs a x y ∧ Spec.ByBinary fs a' x y ∧
    (a'.lon1, a'.lat1, a'.lon2, a'.lat2, a'.lonSub, a'.latSub) = (a.lon1, a.lat1, a.lon2, a.lat2, a.lonSub, a.latSub) ∧
    (∃ d g ni nj, regrid Toy.geod fs 4 a = some (d, .ok (g, ni, nj))) ∧
    ∃ d, regrid Toy.geod fs 4 a' = some (d, .error .valueError) := by
  refine ⟨files tieX tieY, { byCsv with lon1 := 8, lat1 := 0, lon2 := 16, lat2 := Toy.ofInt (-8) },
    { byBin with lon1 := 8, lat1 := 0, lon2 := 16, lat2 := Toy.ofInt (-8) }, tieX, tieY, ?_, ?_, rfl, ?_, ?_⟩
  · exact ⟨"x.csv", "y.csv", fun f h => h.2 (Option.some.inj h.1).symm, ⟨rfl, by decide⟩, ⟨rfl, by decide⟩,
      (isCsv_iff _).1 (by decide), (isCsv_iff _).1 (by decide), ⟨2, rfl, by decide⟩, ⟨1, rfl, by decide⟩, _, _, rfl, rfl,
      ⟨rfl, rfl, fun _ _ _ _ => rfl⟩, ⟨rfl, rfl, fun _ _ _ _ => rfl⟩⟩
  · exact ⟨"x.bin", "y.bin", _, _, fun f h => h.2 (Option.some.inj h.1).symm, ⟨rfl, by decide⟩, ⟨rfl, by decide⟩,
      by rw [← isCsv_iff, ← isCsv_iff]; decide, rfl, rfl, holds _ rfl rfl (by decide +kernel) (by decide +kernel),
      holds _ rfl rfl (by decide +kernel) (by decide +kernel), 2, 1, ⟨rfl, by decide⟩, ⟨rfl, by decide⟩, rfl, rfl, rfl, rfl⟩
  · exact ⟨_, _, _, _, rfl⟩
  · exact ⟨_, rfl⟩

end SG
