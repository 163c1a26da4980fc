import Verif.Props.GetObcs
/-! # Properties of `getobcs`: boundary files and weights (C53-C55, C57, C68) -/

set_option linter.unusedSectionVars false
namespace SG
variable {F W : Type} [PyFloat F]

/-! ## The model's names are those of the specification -/

theorem respName_eq (r : Resp) : r.name = Spec.respName r := by cases r <;> rfl

theorem points_eq (r : Resp) : r.kind = Spec.points r := by cases r <;> rfl

theorem sideLength_eq (s : Side) (ni nj : Nat) : s.len ni nj = Spec.sideLength s ni nj := by cases s <;> rfl

theorem obName_eq (s : Side) (r : Resp) : obFileName s r = Spec.obName s r := by
  cases s <;> cases r <;> decide

theorem inDir_eq (dir name : Text) : pathJoin dir name = Spec.inDir dir name := by
  unfold pathJoin Spec.inDir
  by_cases h : dir = []
  · subst h; simp
  · by_cases h2 : dir.getLast? = some '/'
    · rw [if_pos (Or.inr h2), if_neg h, if_pos h2]
    · rw [if_neg (fun hh => hh.elim h h2), if_neg h, if_neg h2]
      simp

theorem weightPath_eq (dir : Text) (si so : Nat × Nat) (kd : Kind) :
    pathJoin dir (weightfilename interpMeth si so (Spec.kindText kd) ".nc".toList) = Spec.weightPath dir si so kd := by
  rw [inDir_eq]
  unfold Spec.weightPath weightfilename
  have e : interpMeth ++ ['_'] = "bilinear_".toList := by decide
  have : ∀ t : Text, "bilinear_".toList ++ t = interpMeth ++ '_' :: t := by
    intro t; rw [← e]; simp
  simp only [List.append_assoc]
  rw [this]
  simp

theorem isResult_iff (r : Resp) (n : Text) : isResult r.name n = true ↔ Spec.IsResult r n := by
  rw [respName_eq]
  unfold isResult Spec.IsResult
  generalize Spec.respName r = p
  rw [Bool.and_eq_true, List.isPrefixOf_iff_prefix, List.isSuffixOf_iff_suffix]
  constructor
  · rintro ⟨⟨t, rfl⟩, h⟩
    rw [List.drop_left' (by simp)] at h
    obtain ⟨mid, rfl⟩ := h
    exact ⟨mid, by simp⟩
  · rintro ⟨mid, rfl⟩
    refine ⟨⟨mid ++ ".data".toList, by simp⟩, ?_⟩
    have : p ++ ".".toList ++ mid ++ ".data".toList = (p ++ ['.']) ++ (mid ++ ".data".toList) := by simp
    rw [this, List.drop_left' (by simp)]
    exact ⟨mid, rfl⟩

theorem present_iff (names : List Text) (r : Resp) : names.any (isResult r.name) = true ↔ Spec.Present names r := by
  rw [List.any_eq_true]
  simp only [isResult_iff, Spec.Present]

theorem filter_eq (names : List Text) (r : Resp) :
    names.filter (isResult r.name) = names.filter fun n => decide (Spec.IsResult r n) := by
  apply List.filter_congr
  intro n _
  rw [Bool.eq_iff_iff, isResult_iff, decide_eq_true_iff]

theorem rstripSlash_spec (t : Text) : ∃ sl : Text, t = rstripSlash t ++ sl ∧ (∀ c ∈ sl, c = '/') ∧ (rstripSlash t).getLast? ≠ some '/' := by
  refine ⟨(t.reverse.takeWhile (· == '/')).reverse, ?_, ?_, ?_⟩
  · unfold rstripSlash
    rw [← List.reverse_append, List.takeWhile_append_dropWhile, List.reverse_reverse]
  · intro c hc
    have : ∀ (l : Text) c, c ∈ l.takeWhile (· == '/') → c = '/' := by
      intro l
      induction l with
      | nil => intro c hc; cases hc
      | cons x l ih =>
        intro c hc
        by_cases hx : x = '/'
        · rw [List.takeWhile_cons_of_pos (by simp [hx])] at hc
          rcases List.mem_cons.1 hc with rfl | hc
          · exact hx
          · exact ih c hc
        · rw [List.takeWhile_cons_of_neg (by simp [hx])] at hc; cases hc
    exact this _ c (List.mem_reverse.1 hc)
  · unfold rstripSlash
    rw [List.getLast?_reverse]
    intro h
    have := List.head?_dropWhile_not (· == '/') t.reverse
    rw [h] at this
    simp at this

theorem strip_unique {b b' sl sl' : Text} (h : b ++ sl = b' ++ sl') (hs : ∀ c ∈ sl, c = '/') (hs' : ∀ c ∈ sl', c = '/')
    (hb : b.getLast? ≠ some '/') (hb' : b'.getLast? ≠ some '/') : b = b' := by
  have key : ∀ (b x : Text), (∀ c ∈ x, c = '/') → (b ++ x).getLast? ≠ some '/' → x = [] := by
    intro b x hx hl
    rcases List.eq_nil_or_concat x with rfl | ⟨l, c, rfl⟩
    · rfl
    · have : c = '/' := hx c (by simp)
      subst this
      exact absurd (by simp) hl
  rcases List.append_eq_append_iff.1 h with ⟨x, h1, h2⟩ | ⟨x, h1, h2⟩
  · have : x = [] := key b x (fun c hc => hs c (by rw [h2]; simp [hc])) (by rw [← h1]; exact hb')
    rw [h1, this, List.append_nil]
  · have : x = [] := key b' x (fun c hc => hs' c (by rw [h2]; simp [hc])) (by rw [← h1]; exact hb)
    rw [h1, this, List.append_nil]

theorem outDir_spec (a : ObcsArgs F) (parent : Text) : Spec.OutDir a parent (resultsDirOf a parent) := by
  obtain ⟨sl, h1, h2, h3⟩ := rstripSlash_spec parent
  unfold resultsDirOf
  refine ⟨fun d hd hne => ?_, fun h => ?_⟩
  · rw [hd]
    cases d with
    | nil => exact absurd rfl hne
    | cons c d => rfl
  · refine ⟨rstripSlash parent, sl, h1, h2, h3, ?_⟩
    rcases h with h | h <;> rw [h]

/-- The specification determines the directory. -/
theorem outDir_unique {a : ObcsArgs F} {parent dir : Text} (h : Spec.OutDir a parent dir) : dir = resultsDirOf a parent := by
  obtain ⟨g1, g2⟩ := outDir_spec a parent
  obtain ⟨h1, h2⟩ := h
  have key : (a.resultsdir = none ∨ a.resultsdir = some []) → dir = resultsDirOf a parent := by
    intro hr
    obtain ⟨b, sl, e1, e2, e3, e4⟩ := h2 hr
    obtain ⟨b', sl', e1', e2', e3', e4'⟩ := g2 hr
    rw [e4, e4', strip_unique (e1.symm.trans e1') e2 e2' e3 e3']
  rcases hr : a.resultsdir with _ | ⟨_ | ⟨c, d⟩⟩
  · exact key (.inl hr)
  · exact key (.inr hr)
  · rw [h1 _ hr (by simp), g1 _ hr (by simp)]

/-! ## The interpolators -/

theorem openRegridder_ok {xe : Xesmf F W} {dir : Text} {gin gout : Mat F × Mat F} {kd : Kind} {k k' : Disk W}
    {r : Regridder W} (h : openRegridder xe dir gin gout (Spec.kindText kd) k = some (k', .ok r)) :
    r.shapeIn = (gin.1.rows, gin.1.cols) ∧ r.shapeOut = (gout.1.rows, gout.1.cols) ∧ k'.out = k.out ∧
    k'.weights (Spec.weightPath dir r.shapeIn r.shapeOut kd) = some r.w ∧
    (∀ n, n ≠ Spec.weightPath dir r.shapeIn r.shapeOut kd → k'.weights n = k.weights n) ∧
    (∀ w, k.weights (Spec.weightPath dir r.shapeIn r.shapeOut kd) = some w → r.w = w) ∧
    (k.weights (Spec.weightPath dir r.shapeIn r.shapeOut kd) = none → xe.build gin gout = .ok r.w) := by
  simp only [← weightPath_eq]
  unfold openRegridder at h
  dsimp only at h
  cases hw : k.weights (pathJoin dir (weightfilename interpMeth (gin.1.rows, gin.1.cols) (gout.1.rows, gout.1.cols)
      (Spec.kindText kd) ".nc".toList)) with
  | some w =>
    rw [hw] at h
    cases h
    refine ⟨rfl, rfl, rfl, hw, fun _ _ => rfl, fun w' h' => ?_, fun h' => ?_⟩
    · have h' : k.weights (pathJoin dir (weightfilename interpMeth (gin.1.rows, gin.1.cols) (gout.1.rows, gout.1.cols)
        (Spec.kindText kd) ".nc".toList)) = some w' := h'
      rw [hw] at h'; injection h'
    · have h' : k.weights (pathJoin dir (weightfilename interpMeth (gin.1.rows, gin.1.cols) (gout.1.rows, gout.1.cols)
        (Spec.kindText kd) ".nc".toList)) = none := h'
      rw [hw] at h'; cases h'
  | none =>
    rw [hw] at h
    cases hb : xe.build gin gout with
    | error e => rw [hb] at h; cases h
    | ok w =>
      rw [hb] at h
      cases h
      refine ⟨rfl, rfl, rfl, if_pos rfl, fun n hn => if_neg hn, fun w' h' => ?_, fun _ => rfl⟩
      have h' : k.weights (pathJoin dir (weightfilename interpMeth (gin.1.rows, gin.1.cols) (gout.1.rows, gout.1.cols)
        (Spec.kindText kd) ".nc".toList)) = some w' := h'
      rw [hw] at h'; cases h'

theorem weightPath_kind {dir : Text} {a b c d : Nat × Nat} {kd kd' : Kind}
    (h : Spec.weightPath dir a b kd = Spec.weightPath dir c d kd') : a = c ∧ b = d ∧ kd = kd' := by
  rw [← weightPath_eq, ← weightPath_eq] at h
  obtain ⟨h1, h2, h3⟩ := C56_weightfilename_injective _ _ _ _ _ _ _ _ _ (pathJoin_inj _ _ _ h)
  refine ⟨h1, h2, ?_⟩
  revert h3
  cases kd <;> cases kd' <;> decide

/-- A call of `regrid` on a grid of the results. -/
def Spec.Refined [F64 F] (geod : Geod F) (fs : Files F) (fuel : Nat) (d : MatDict F) (n m : Nat) (fine : Grid F) : Prop :=
  ∃ lon1 lat1 lon2 lat2 after sizes,
    d.xg.mat.atI 0 (-1) = .ok lon1 ∧ d.yg.mat.atI 0 (-1) = .ok lat1 ∧
    d.xg.mat.atI (-1) 0 = .ok lon2 ∧ d.yg.mat.atI (-1) 0 = .ok lat2 ∧
    regrid geod fs fuel ⟨false, none, none, none, some d, some n, some m, lon1, lat1, lon2, lat2, 2, 2⟩ =
      some (after, .ok (fine, sizes))

theorem doubled_ok [F64 F] {geod : Geod F} {fs : Files F} {fuel : Nat} {g : ObGrid F} {ni nj : Nat} {k k' : Disk W}
    {dg : Grid F} (h : doubled geod fs fuel g ni nj k = some (k', .ok dg)) :
    k' = k ∧ (∀ (W' : Type) (k2 : Disk W'), doubled geod fs fuel g ni nj k2 = some (k2, .ok dg)) ∧
    ∃ x y, g.xg = .ok x ∧ g.yg = .ok y ∧ Spec.Refined geod fs fuel ⟨x, y, g.rest⟩ ni nj dg := by
  unfold doubled at h ⊢
  obtain ⟨k1, a, h1, h2⟩ := Act.bind_ok_inv h
  obtain ⟨e, ha⟩ := Act.lift_ok_inv h1
  cases hr : regrid geod fs fuel a with
  | none => rw [hr] at h2; cases h2
  | some x =>
    obtain ⟨m, r⟩ := x
    rw [hr] at h2
    cases r with
    | error e => cases h2
    | ok y =>
      cases h2
      refine ⟨e, fun W' k2 => ?_, ?_⟩
      · rw [ha]
        show (match regrid geod fs fuel a with
          | none => none
          | some (_, Except.error e) => some (k2, Except.error e)
          | some (_, Except.ok r) => some (k2, Except.ok r.1)) = _
        rw [hr]
      · obtain ⟨x, hx, ha⟩ := bind_ok_inv ha
        obtain ⟨lon1, hlon1, ha⟩ := bind_ok_inv ha
        obtain ⟨yy, hy, ha⟩ := bind_ok_inv ha
        obtain ⟨lat1, hlat1, ha⟩ := bind_ok_inv ha
        obtain ⟨lon2, hlon2, ha⟩ := bind_ok_inv ha
        obtain ⟨lat2, hlat2, ha⟩ := bind_ok_inv ha
        cases ha
        exact ⟨x, yy, hx, hy, lon1, lat1, lon2, lat2, m, y.2, hlon1, hlat1, hlon2, hlat2, hr⟩

theorem arr_ok {g : Grid F} {f : Field} {m : Mat F} (h : g.arr f = .ok m) : g f = .arr m := by
  unfold Grid.arr at h
  cases hx : g f with
  | absent => rw [hx] at h; cases h
  | none_ => rw [hx] at h; cases h
  | arr m' => rw [hx] at h; cases h; rfl

theorem shaped_ok {g : Grid F} {f : Field} {m : Mat F} (h : g.shaped f = .ok m) : g f = .arr m := by
  unfold Grid.shaped at h
  cases hx : g f with
  | absent => rw [hx] at h; cases h
  | none_ => rw [hx] at h; cases h
  | arr m' => rw [hx] at h; cases h; rfl

/-- The stages of building the interpolators. -/
theorem regridders_inv [F64 F] {geod : Geod F} {fs : Files F} {fuel : Nat} {xe : Xesmf F W} {dir : Text}
    {p g : ObGrid F × Nat × Nat} {k k1 : Disk W} {r : Kind → Regridder W}
    (h : regridders geod fs fuel xe dir p g k = some (k1, .ok r)) :
    ∃ cp cg dp dg up ug vp vg ka kb, cPoints p.1.rest = .ok cp ∧ cPoints g.1.rest = .ok cg ∧
      openRegridder xe dir cp cg (Spec.kindText .tracer) k = some (ka, .ok (r .tracer)) ∧
      (∀ (W' : Type) (k : Disk W'), doubled geod fs fuel p.1 p.2.1 p.2.2 k = some (k, .ok dp)) ∧
      (∀ (W' : Type) (k : Disk W'), doubled geod fs fuel g.1 g.2.1 g.2.2 k = some (k, .ok dg)) ∧
      (∃ x y, p.1.xg = .ok x ∧ p.1.yg = .ok y ∧ Spec.Refined geod fs fuel ⟨x, y, p.1.rest⟩ p.2.1 p.2.2 dp) ∧
      (∃ x y, g.1.xg = .ok x ∧ g.1.yg = .ok y ∧ Spec.Refined geod fs fuel ⟨x, y, g.1.rest⟩ g.2.1 g.2.2 dg) ∧
      uPoints dp = .ok up ∧ uPoints dg = .ok ug ∧
      openRegridder xe dir up ug (Spec.kindText .u) ka = some (kb, .ok (r .u)) ∧
      vPoints dp = .ok vp ∧ vPoints dg = .ok vg ∧
      openRegridder xe dir vp vg (Spec.kindText .v) kb = some (k1, .ok (r .v)) := by
  unfold regridders at h
  obtain ⟨k2, cp, h1, h2⟩ := Act.bind_ok_inv h
  obtain ⟨e1, hcp⟩ := Act.lift_ok_inv h1
  obtain ⟨k3, cg, h3, h4⟩ := Act.bind_ok_inv h2
  obtain ⟨e2, hcg⟩ := Act.lift_ok_inv h3
  obtain ⟨k4, rt, h5, h6⟩ := Act.bind_ok_inv h4
  obtain ⟨k5, dp, h7, h8⟩ := Act.bind_ok_inv h6
  obtain ⟨e5, hdp, hrp⟩ := doubled_ok h7
  obtain ⟨k6, dg, h9, h10⟩ := Act.bind_ok_inv h8
  obtain ⟨e6, hdg, hrg⟩ := doubled_ok h9
  obtain ⟨k7, up, h11, h12⟩ := Act.bind_ok_inv h10
  obtain ⟨e7, hup⟩ := Act.lift_ok_inv h11
  obtain ⟨k8, ug, h13, h14⟩ := Act.bind_ok_inv h12
  obtain ⟨e8, hug⟩ := Act.lift_ok_inv h13
  obtain ⟨k9, ru, h15, h16⟩ := Act.bind_ok_inv h14
  obtain ⟨k10, vp, h17, h18⟩ := Act.bind_ok_inv h16
  obtain ⟨e10, hvp⟩ := Act.lift_ok_inv h17
  obtain ⟨k11, vg, h19, h20⟩ := Act.bind_ok_inv h18
  obtain ⟨e11, hvg⟩ := Act.lift_ok_inv h19
  obtain ⟨k12, rv, h21, h22⟩ := Act.bind_ok_inv h20
  cases h22
  rw [e2, e1] at h5
  rw [e8, e7, e6, e5] at h15
  rw [e11, e10] at h21
  exact ⟨cp, cg, dp, dg, up, ug, vp, vg, k4, k9, hcp, hcg, h5, hdp, hdg, hrp, hrg, hup, hug, h15, hvp, hvg, h21⟩

theorem uPoints_ok {dg : Grid F} {pts : Mat F × Mat F} (h : uPoints dg = .ok pts) :
    ∃ x y, dg .XG = .arr x ∧ dg .YG = .arr y ∧
      (∀ i j, pts.1.get i j = x.get (2 * i) (2 * j + 1)) ∧ (∀ i j, pts.2.get i j = y.get (2 * i) (2 * j + 1)) ∧
      pts.1.rows = (x.rows + 1) / 2 ∧ pts.1.cols = x.cols / 2 := by
  unfold uPoints at h
  obtain ⟨x, hx, h⟩ := bind_ok_inv h
  obtain ⟨y, hy, h⟩ := bind_ok_inv h
  cases h
  refine ⟨x, y, arr_ok hx, arr_ok hy, fun i j => ?_, fun i j => ?_, ?_, ?_⟩
  · show x.get (0 + i * 2) (1 + j * 2) = _
    congr 1 <;> omega
  · show y.get (0 + i * 2) (1 + j * 2) = _
    congr 1 <;> omega
  · simp only [Mat.strided, sliceLen]; omega
  · simp only [Mat.strided, sliceLen]; omega

theorem vPoints_ok {dg : Grid F} {pts : Mat F × Mat F} (h : vPoints dg = .ok pts) :
    ∃ x y, dg .XG = .arr x ∧ dg .YG = .arr y ∧
      (∀ i j, pts.1.get i j = x.get (2 * i + 1) (2 * j)) ∧ (∀ i j, pts.2.get i j = y.get (2 * i + 1) (2 * j)) ∧
      pts.1.rows = x.rows / 2 ∧ pts.1.cols = (x.cols + 1) / 2 := by
  unfold vPoints at h
  obtain ⟨x, hx, h⟩ := bind_ok_inv h
  obtain ⟨y, hy, h⟩ := bind_ok_inv h
  cases h
  refine ⟨x, y, arr_ok hx, arr_ok hy, fun i j => ?_, fun i j => ?_, ?_, ?_⟩
  · show x.get (1 + i * 2) (0 + j * 2) = _
    congr 1 <;> omega
  · show y.get (1 + i * 2) (0 + j * 2) = _
    congr 1 <;> omega
  · simp only [Mat.strided, sliceLen]; omega
  · simp only [Mat.strided, sliceLen]; omega

theorem cPoints_ok {g : Grid F} {pts : Mat F × Mat F} (h : cPoints g = .ok pts) :
    g .XC = .arr pts.1 ∧ g .YC = .arr pts.2 := by
  unfold cPoints at h
  obtain ⟨x, hx, h⟩ := bind_ok_inv h
  obtain ⟨y, hy, h⟩ := bind_ok_inv h
  cases h
  exact ⟨shaped_ok hx, shaped_ok hy⟩

/-- Weights of each interpolator: those found under its name, otherwise those of the points of the two grids. -/
theorem regridders_ok [F64 F] {geod : Geod F} {fs : Files F} {fuel : Nat} {xe : Xesmf F W} {dir : Text}
    {p g : ObGrid F × Nat × Nat} {k k1 : Disk W} {r : Kind → Regridder W}
    (h : regridders geod fs fuel xe dir p g k = some (k1, .ok r)) :
    k1.out = k.out ∧ ∃ xp yp xg yg, p.1.xg = .ok xp ∧ p.1.yg = .ok yp ∧ g.1.xg = .ok xg ∧ g.1.yg = .ok yg ∧ ∀ kd,
      k1.weights (Spec.weightPath dir (r kd).shapeIn (r kd).shapeOut kd) = some (r kd).w ∧
      (∀ w, k.weights (Spec.weightPath dir (r kd).shapeIn (r kd).shapeOut kd) = some w → (r kd).w = w) ∧
      ∃ gin gout, Spec.PointsOf geod fs fuel ⟨xp, yp, p.1.rest⟩ p.2.1 p.2.2 kd gin ∧
          Spec.PointsOf geod fs fuel ⟨xg, yg, g.1.rest⟩ g.2.1 g.2.2 kd gout ∧
          (r kd).shapeIn = (gin.1.rows, gin.1.cols) ∧ (r kd).shapeOut = (gout.1.rows, gout.1.cols) ∧
          (k.weights (Spec.weightPath dir (r kd).shapeIn (r kd).shapeOut kd) = none → xe.build gin gout = .ok (r kd).w) := by
  obtain ⟨cp, cg, dp, dg, up, ug, vp, vg, ka, kb, hcp, hcg, ht, hdp, hdg, hrp, hrg, hup, hug, hu, hvp, hvg, hv⟩ := regridders_inv h
  obtain ⟨t1, t2, t3, t4, t5, t6, t7⟩ := openRegridder_ok ht
  obtain ⟨u1, u2, u3, u4, u5, u6, u7⟩ := openRegridder_ok hu
  obtain ⟨v1, v2, v3, v4, v5, v6, v7⟩ := openRegridder_ok hv
  obtain ⟨xp, yp, exp, eyp, plon1, plat1, plon2, plat2, pm, ps, p1, p2, p3, p4, p5⟩ := hrp
  obtain ⟨xg, yg, exg, eyg, glon1, glat1, glon2, glat2, gm, gs, g1, g2, g3, g4, g5⟩ := hrg
  have diff : ∀ {a b c d : Nat × Nat} {x y : Kind}, x ≠ y → Spec.weightPath dir a b x ≠ Spec.weightPath dir c d y :=
    fun hne e => hne (weightPath_kind e).2.2
  refine ⟨by rw [v3, u3, t3], xp, yp, xg, yg, exp, eyp, exg, eyg, fun kd => ?_⟩
  cases kd with
  | tracer =>
    refine ⟨?_, t6, cp, cg, cPoints_ok hcp, cPoints_ok hcg, t1, t2, t7⟩
    rw [v5 _ (diff (by decide)), u5 _ (diff (by decide))]
    exact t4
  | u =>
    have e : ka.weights (Spec.weightPath dir (r .u).shapeIn (r .u).shapeOut .u) =
      k.weights (Spec.weightPath dir (r .u).shapeIn (r .u).shapeOut .u) := t5 _ (diff (by decide))
    refine ⟨?_, fun w hw => u6 w (e.trans hw), ?_⟩
    · rw [v5 _ (diff (by decide))]; exact u4
    · obtain ⟨x, y, a1, a2, a3, a4, a5, a6⟩ := uPoints_ok hup
      obtain ⟨x', y', b1, b2, b3, b4, b5, b6⟩ := uPoints_ok hug
      exact ⟨up, ug, ⟨_, _, _, _, _, dp, _, x, y, p1, p2, p3, p4, p5, a1, a2, a3, a4, a5, a6⟩,
        ⟨_, _, _, _, _, dg, _, x', y', g1, g2, g3, g4, g5, b1, b2, b3, b4, b5, b6⟩, u1, u2, fun hn => u7 (e.trans hn)⟩
  | v =>
    have e : kb.weights (Spec.weightPath dir (r .v).shapeIn (r .v).shapeOut .v) =
      k.weights (Spec.weightPath dir (r .v).shapeIn (r .v).shapeOut .v) :=
      (u5 _ (diff (by decide))).trans (t5 _ (diff (by decide)))
    refine ⟨v4, fun w hw => v6 w (e.trans hw), ?_⟩
    obtain ⟨x, y, a1, a2, a3, a4, a5, a6⟩ := vPoints_ok hvp
    obtain ⟨x', y', b1, b2, b3, b4, b5, b6⟩ := vPoints_ok hvg
    exact ⟨vp, vg, ⟨_, _, _, _, _, dp, _, x, y, p1, p2, p3, p4, p5, a1, a2, a3, a4, a5, a6⟩,
      ⟨_, _, _, _, _, dg, _, x', y', g1, g2, g3, g4, g5, b1, b2, b3, b4, b5, b6⟩, v1, v2, fun hn => v7 (e.trans hn)⟩

/-! ## C55: order in the file -/

/-- The bytes of an array. -/
theorem arr3Bytes_spec [F64 F] (A : Arr3 F) : Spec.BytesOf A (arr3Bytes A) := by
  have hlist : ∀ p, ((List.range A.n1).flatMap fun d => (List.range A.n2).map fun t => A.get p d t).length = A.n1 * A.n2 := by
    intro p
    rw [length_flatMap_const _ _ A.n2 (by simp)]; simp
  have hlen : ((List.range A.n0).flatMap fun p => (List.range A.n1).flatMap fun d => (List.range A.n2).map fun t =>
      A.get p d t).length = A.n0 * (A.n1 * A.n2) := by
    rw [length_flatMap_const _ _ (A.n1 * A.n2) (fun p _ => hlist p)]; simp
  constructor
  · show (enc _).length = _
    rw [enc_length, hlen, Nat.mul_comm, Nat.mul_assoc A.n0]
  · intro p d t hp hd ht
    show Spec.beDouble (enc _) _ = _
    rw [beDouble_enc]
    have hdt : d * A.n2 + t < A.n1 * A.n2 := by
      have : (d + 1) * A.n2 ≤ A.n1 * A.n2 := Nat.mul_le_mul_right _ hd
      rw [Nat.add_mul] at this; omega
    have e : (p * A.n1 + d) * A.n2 + t = p * (A.n1 * A.n2) + (d * A.n2 + t) := by
      rw [Nat.add_mul, Nat.mul_assoc]; omega
    rw [e, getElem?_flatMap_const _ _ (A.n1 * A.n2) (fun p _ => hlist p) p _ hdt]
    rw [List.getElem?_range hp]
    simp only [Option.bind_some]
    rw [getElem?_flatMap_const _ _ A.n2 (by simp) d t ht, List.getElem?_range hd]
    simp [ht]

/-! ## C54 -/

theorem depthCount_ok {v : Vol F} {n : Nat} (h : depthCount (.ok v) = .ok n) : n = v.depths.getD 1 := by
  cases h; rfl

theorem output_ok [F64 F] {xe : Xesmf F W} {r : Kind → Regridder W} {run : RunDir F} {ob : Side → ObArg}
    {obs : Side → List Int × Bool} {ni nj : Nat} {times : List Nat} {dir : Text} {k k' : Disk W}
    (ho : obVectors ob ni nj = .ok obs) (ht : times ≠ [])
    (h : responses xe r run obs ni nj times dir Resp.all k = some (k', .ok ())) :
    k'.weights = k.weights ∧ Spec.ObcsOutput xe r run ob ni nj times dir k k' := by
  obtain ⟨h0, h1, h2⟩ := responses_ok Resp.all (by decide) h
  have hdo : ∀ s, (obs s).2 = true := by
    intro s
    obtain ⟨v, hv, e⟩ := obVectors_ok ho s
    rw [e]; exact (obVector_ok hv).1
  refine ⟨h0, fun resp hpres s => ?_, fun n hn => h2 n (fun resp _ hp s _ => ?_)⟩
  case refine_2 => rw [inDir_eq, obName_eq]; exact hn resp ((present_iff _ _).1 hp) s
  obtain ⟨arrs, ha, hout⟩ := h1 resp (by cases resp <;> decide) ((present_iff _ _).2 hpres)
  obtain ⟨nd, hnd, hdim, hall⟩ := assemble_ok ha
  obtain ⟨d0, d1, d2⟩ := hdim s
  have hfile := hout s (hdo s)
  rw [inDir_eq, obName_eq] at hfile
  refine ⟨arrs s, _, hfile, arr3Bytes_spec _, d0.trans (sideLength_eq s ni nj), d2, ?_, fun t htl => ?_⟩
  · have hpos : 0 < times.length := by
      cases times with
      | nil => exact absurd rfl ht
      | cons a l => simp
    obtain ⟨v, hv, -⟩ := hall 0 hpos
    have e : times.headD 0 = times.getD 0 0 := by cases times <;> rfl
    rw [e] at hnd ⊢
    rw [hv] at hnd
    rw [respName_eq] at hv
    exact ⟨v, hv, by rw [d1]; exact depthCount_ok hnd⟩
  · obtain ⟨v, hv, hd⟩ := hall t htl
    have e : times.getD t 0 = times[t] := by simp [List.getD_eq_getElem?_getD, htl]
    rw [e, respName_eq] at hv
    refine ⟨v, hv, fun d hdn => ?_⟩
    obtain ⟨M, hM, hl⟩ := hd d (by omega)
    rw [points_eq] at hM hl
    exact ⟨M, interpolate_ok hM, fun p hp => lineOK_spec ho (hl s) p (by omega)⟩

/-- Everything a successful call did. -/
theorem getobcs_spec [F64 F] {geod : Geod F} {fs : Files F} {fuel : Nat} {xe : Xesmf F W} {runs : Text → RunDir F}
    {a : ObcsArgs F} {k k' : Disk W} {pdir dir : Text} (hdir : a.parentResultsdir = some pdir) (hod : Spec.OutDir a pdir dir)
    (h : getobcs geod fs fuel xe runs a k = some (k', .ok ())) :
    ∃ pd pn pm gd ni nj r times, Spec.ParentGrid fs a pd pn pm ∧ Spec.RegionalGrid fs a gd ni nj ∧
      Spec.Interpolators geod fs fuel xe dir pd pn pm gd ni nj k k' r ∧
      resultTimes (runs pdir) = .ok times ∧ times ≠ [] ∧
      Spec.ObcsOutput xe r (runs pdir) a.ob ni nj times dir k k' := by
  have hod := outDir_unique hod
  subst hod
  obtain ⟨pdir', p, g, obs, r, k1, times, h1, h2, h3, h4, h5, h6, h7, h8, h9⟩ := getobcs_ok h
  rw [hdir] at h1
  injection h1 with e
  subst e
  obtain ⟨w, hout⟩ := output_ok h5 h8 h9
  obtain ⟨o, xp, yp, xg, yg, e1, e2, e3, e4, hk⟩ := regridders_ok h6
  have hp : Spec.ParentGrid fs a ⟨xp, yp, p.1.rest⟩ p.2.1 p.2.2 := by
    unfold parentGrid at h3
    cases hf : fileOrMatrices fs a.strict a.parentFile a.niParent a.njParent a.parentMatrices with
    | some r => rw [hf] at h3; subst h3; exact fileOrMatrices_ok hf e1 e2
    | none =>
      exfalso
      have hno : (a.parentFile = none ∨ a.parentFile = some "") ∧ a.parentMatrices = none := by
        unfold fileOrMatrices at hf
        rcases hfile : a.parentFile with _ | f
        · rw [hfile] at hf
          cases hm : a.parentMatrices with
          | none => exact ⟨.inl rfl, rfl⟩
          | some d => rw [hm] at hf; cases hf
        · rw [hfile] at hf
          by_cases e : f = ""
          · subst e
            cases hm : a.parentMatrices with
            | none => exact ⟨.inr rfl, rfl⟩
            | some d => rw [hm] at hf; cases hf
          · rw [show strTruthy (some f) = some f from if_neg e] at hf
            dsimp only at hf
            split at hf <;> cases hf
      obtain ⟨k2, e, he, -⟩ := C51_parent_from_results_raises geod fs fuel xe runs a hno.1 hno.2 k
      rw [h] at he
      cases he
  have hg : Spec.RegionalGrid fs a ⟨xg, yg, g.1.rest⟩ g.2.1 g.2.2 := by
    unfold regionalGrid at h4
    cases hf : fileOrMatrices fs a.strict a.regionalFile a.niRegional a.njRegional a.regionalMatrices with
    | some r => rw [hf] at h4; subst h4; exact fileOrMatrices_ok hf e3 e4
    | none => rw [hf] at h4; cases h4
  refine ⟨_, _, _, _, _, _, r, times, hp, hg, ?_, h7, h8, hout.1, fun n hn => ?_⟩
  · intro kd
    rw [w]
    exact hk kd
  · rw [hout.2 n hn, o]

/-- **C54**.  After a successful call, the output directory has a file for every response of which there are results and every
boundary, and no other output was touched.  It holds an array whose element `(p,d,t)` is the interpolated result of depth `d` at the
`t`-th smallest time step at the `p`-th boundary cell. -/
theorem C54_assembly [F64 F] (geod : Geod F) (fs : Files F) (fuel : Nat) (xe : Xesmf F W) (runs : Text → RunDir F)
    (a : ObcsArgs F) (k k' : Disk W) (pdir dir : Text) (hdir : a.parentResultsdir = some pdir) (hod : Spec.OutDir a pdir dir)
    (files : List (Nat × Text)) (htile : ∀ x ∈ files, ∀ c ∈ x.2.head?, c.isDigit = false)
    (hfiles : (runs pdir).names.filter (fun n => decide (Spec.IsResult .T n)) = files.map fun x => Spec.resultName "T".toList x.1 x.2)
    (h : getobcs geod fs fuel xe runs a k = some (k', .ok ())) :
    ∃ pd pn pm gd ni nj r times, Spec.ParentGrid fs a pd pn pm ∧ Spec.RegionalGrid fs a gd ni nj ∧
      Spec.Interpolators geod fs fuel xe dir pd pn pm gd ni nj k k' r ∧
      times.Perm (files.map (·.1)) ∧ times.Pairwise (· ≤ ·) ∧ times ≠ [] ∧
      Spec.ObcsOutput xe r (runs pdir) a.ob ni nj times dir k k' := by
  obtain ⟨pd, pn, pm, gd, ni, nj, r, times, h1, h2, h3, h4, h5, h6⟩ := getobcs_spec hdir hod h
  rw [resultTimes_spec _ files htile ((filter_eq _ _).trans hfiles)] at h4
  injection h4 with e
  subst e
  exact ⟨pd, pn, pm, gd, ni, nj, r, _, h1, h2, h3, pySorted_perm _, pySorted_sorted _, h5, h6⟩

/-! ## C53 -/

theorem atI_nat {m : Mat F} {i j : Nat} {x : F} (h : m.atI i j = .ok x) : i < m.rows ∧ j < m.cols ∧ x = m.get i j := by
  unfold Mat.atI pyIdx at h
  rw [if_pos (Int.natCast_nonneg i), if_pos (Int.natCast_nonneg j)] at h
  by_cases hi : (i : Int) < m.rows
  · by_cases hj : (j : Int) < m.cols
    · rw [if_pos hi, if_pos hj] at h
      injection h with h
      exact ⟨by omega, by omega, h.symm⟩
    · rw [if_pos hi, if_neg hj] at h; cases h
  · rw [if_neg hi] at h
    by_cases hj : (j : Int) < m.cols
    · rw [if_pos hj] at h; cases h
    · rw [if_neg hj] at h; cases h

/-- **C53**.  Without index vectors every boundary value is the interpolated value at the outermost tracer cell (inner face for
normal velocities), which lies inside the interpolated array. -/
theorem C53_default_boundaries [F64 F] (geod : Geod F) (fs : Files F) (fuel : Nat) (xe : Xesmf F W) (runs : Text → RunDir F)
    (a : ObcsArgs F) (k k' : Disk W) (pdir dir : Text) (hdir : a.parentResultsdir = some pdir)
    (hod : Spec.OutDir a pdir dir) (hob : ∀ s, a.ob s = .missing)
    (h : getobcs geod fs fuel xe runs a k = some (k', .ok ())) :
    ∃ (r : Kind → Regridder W) (ni nj : Nat), (∃ gd, Spec.RegionalGrid fs a gd ni nj) ∧ (0 < ni → 0 < nj →
      ∀ resp : Resp, Spec.Present (runs pdir).names resp → ∀ s : Side, ∃ (A : Arr3 F) (bytes : List Byte),
        k'.out (Spec.inDir dir (Spec.obName s resp)) = some bytes ∧ Spec.BytesOf A bytes ∧ A.n0 = Spec.sideLength s ni nj ∧
        ∀ t d, t < A.n2 → d < A.n1 → ∃ time v M, (runs pdir).read (Spec.respName resp) time = .ok v ∧
          Spec.Interpolated xe (r (Spec.points resp)) (Spec.points resp) v d M ∧
          ∀ p, p < A.n0 → (Spec.defaultCell s (Spec.points resp) ni nj p).1 < M.rows ∧ (Spec.defaultCell s (Spec.points resp) ni nj p).2 < M.cols ∧
            A.get p d t = M.get (Spec.defaultCell s (Spec.points resp) ni nj p).1 (Spec.defaultCell s (Spec.points resp) ni nj p).2) := by
  obtain ⟨pd, pn, pm, gd, ni, nj, r, times, h1, h2, h3, h4, h5, hout⟩ := getobcs_spec hdir hod h
  refine ⟨r, ni, nj, ⟨gd, h2⟩, fun hni hnj resp hpres s => ?_⟩
  obtain ⟨A, bytes, hA, hb, e0, e2, -, hall⟩ := hout.1 resp hpres s
  refine ⟨A, bytes, hA, hb, e0, fun t d ht hd => ?_⟩
  obtain ⟨v, hv, hd'⟩ := hall t (by omega)
  obtain ⟨M, hM, hp⟩ := hd' d hd
  refine ⟨_, v, M, hv, hM, fun p hpA => ?_⟩
  have hc := hp p hpA
  rw [hob s] at hc
  have hcell : Spec.obCell s (Spec.points resp) (Spec.obIndex s ni nj .missing) (Spec.obPos .missing p) =
      (((Spec.defaultCell s (Spec.points resp) ni nj p).1 : Int), ((Spec.defaultCell s (Spec.points resp) ni nj p).2 : Int)) := by
    generalize (Spec.points resp) = kd
    cases s <;> cases kd <;>
      simp [Spec.obCell, Spec.defaultCell, Spec.obIndex, Spec.obIndex.edge, Spec.obPos] <;> omega
  rw [hcell] at hc
  exact atI_nat hc

/-- **C52** (the part that holds).  If the call succeeds with a one-element vector `[z]` on a boundary of one cell, the boundary value is that of
the cell documented, for positive `z` on all sides and for negative `z` on N and E.
Missing from the full statement: longer vectors, disabling a boundary, negative indices on S and W (all refuted above and below). -/
theorem C52_single_index_partial [F64 F] (geod : Geod F) (fs : Files F) (fuel : Nat) (xe : Xesmf F W) (runs : Text → RunDir F)
    (a : ObcsArgs F) (k k' : Disk W) (pdir dir : Text) (hdir : a.parentResultsdir = some pdir)
    (hod : Spec.OutDir a pdir dir) (s : Side) (z : Int)
    (hs : a.ob s = .vec [z]) (hz : 0 < z ∨ (z < 0 ∧ (s = .N ∨ s = .E)))
    (h : getobcs geod fs fuel xe runs a k = some (k', .ok ())) :
    ∃ (r : Kind → Regridder W) (ni nj : Nat), (∃ gd, Spec.RegionalGrid fs a gd ni nj) ∧ (Spec.sideLength s ni nj = 1 →
      ∀ resp : Resp, Spec.Present (runs pdir).names resp → (Spec.points resp) = .tracer → ∃ (A : Arr3 F) (bytes : List Byte),
        k'.out (Spec.inDir dir (Spec.obName s resp)) = some bytes ∧ Spec.BytesOf A bytes ∧ A.n0 = 1 ∧
        ∀ t d, t < A.n2 → d < A.n1 → ∃ time v M, (runs pdir).read (Spec.respName resp) time = .ok v ∧
          Spec.Interpolated xe (r (Spec.points resp)) (Spec.points resp) v d M ∧
          let n : Int := match s with | .N | .S => nj | _ => ni
          let x : Int := if 0 < z then z - 1 else n + z
          (match s with | .N | .S => M.atI 0 x | _ => M.atI x 0) = .ok (A.get 0 d t)) := by
  obtain ⟨pd, pn, pm, gd, ni, nj, r, times, h1, h2, h3, h4, h5, hout⟩ := getobcs_spec hdir hod h
  refine ⟨r, ni, nj, ⟨gd, h2⟩, fun hlen resp hpres hk => ?_⟩
  obtain ⟨A, bytes, hA, hb, e0, e2, -, hall⟩ := hout.1 resp hpres s
  refine ⟨A, bytes, hA, hb, by omega, fun t d ht hd => ?_⟩
  obtain ⟨v, hv, hd'⟩ := hall t (by omega)
  obtain ⟨M, hM, hp⟩ := hd' d hd
  refine ⟨_, v, M, hv, hM, ?_⟩
  have hc := hp 0 (by omega)
  rw [hs, hk] at hc
  have hz0 : z ≠ 0 := by omega
  simp only [Spec.obPos, if_neg hz0] at hc
  cases s with
  | N =>
    simp only [Spec.obCell, Spec.obIndex, if_neg hz0] at hc
    dsimp only
    by_cases hneg : z < 0
    · rw [if_pos hneg] at hc; rw [if_neg (by omega)]; exact hc
    · rw [if_neg hneg] at hc; rw [if_pos (by omega)]; exact hc
  | S =>
    rcases hz with hz | ⟨-, hz | hz⟩
    · simp only [Spec.obCell, Spec.obIndex, if_neg hz0] at hc
      dsimp only; rw [if_pos hz]; exact hc
    · cases hz
    · cases hz
  | E =>
    simp only [Spec.obCell, Spec.obIndex, if_neg hz0] at hc
    dsimp only
    by_cases hneg : z < 0
    · rw [if_pos hneg] at hc; rw [if_neg (by omega)]; exact hc
    · rw [if_neg hneg] at hc; rw [if_pos (by omega)]; exact hc
  | W =>
    rcases hz with hz | ⟨-, hz | hz⟩
    · simp only [Spec.obCell, Spec.obIndex, if_neg hz0] at hc
      dsimp only; rw [if_pos hz]; exact hc
    · cases hz
    · cases hz

/-- **C52** (violation).  A negative index on the S or W side is off by one: `[z]` selects the cell counted from the far side *before* the one
documented (index `n+z-1` of `n` cells, while the documentation says `n+z`). -/
theorem C52_negative_off_by_one [F64 F] (geod : Geod F) (fs : Files F) (fuel : Nat) (xe : Xesmf F W) (runs : Text → RunDir F)
    (a : ObcsArgs F) (k k' : Disk W) (pdir dir : Text) (hdir : a.parentResultsdir = some pdir)
    (hod : Spec.OutDir a pdir dir) (s : Side) (z : Int)
    (hside : s = .S ∨ s = .W) (hs : a.ob s = .vec [z]) (hz : z < 0)
    (h : getobcs geod fs fuel xe runs a k = some (k', .ok ())) :
    ∃ (r : Kind → Regridder W) (ni nj : Nat), (∃ gd, Spec.RegionalGrid fs a gd ni nj) ∧
      ∀ resp : Resp, Spec.Present (runs pdir).names resp → (Spec.points resp) = .tracer → ∃ (A : Arr3 F) (bytes : List Byte),
        k'.out (Spec.inDir dir (Spec.obName s resp)) = some bytes ∧ Spec.BytesOf A bytes ∧ A.n0 = Spec.sideLength s ni nj ∧
        ∀ t d, t < A.n2 → d < A.n1 → ∃ time v M, (runs pdir).read (Spec.respName resp) time = .ok v ∧
          Spec.Interpolated xe (r (Spec.points resp)) (Spec.points resp) v d M ∧
          ∀ p, p < A.n0 → ∃ i j : Nat, i < M.rows ∧ j < M.cols ∧ A.get p d t = M.get i j ∧
            (s = .S → i = 0 ∧ (j : Int) = M.cols + z - 1) ∧ (s = .W → j = 0 ∧ (i : Int) = M.rows + z - 1) := by
  obtain ⟨pd, pn, pm, gd, ni, nj, r, times, h1, h2, h3, h4, h5, hout⟩ := getobcs_spec hdir hod h
  refine ⟨r, ni, nj, ⟨gd, h2⟩, fun resp hpres hk => ?_⟩
  obtain ⟨A, bytes, hA, hb, e0, e2, -, hall⟩ := hout.1 resp hpres s
  refine ⟨A, bytes, hA, hb, e0, fun t d ht hd => ?_⟩
  obtain ⟨v, hv, hd'⟩ := hall t (by omega)
  obtain ⟨M, hM, hp⟩ := hd' d hd
  refine ⟨_, v, M, hv, hM, fun p hpA => ?_⟩
  have hc := hp p hpA
  rw [hs, hk] at hc
  have hz0 : z ≠ 0 := by omega
  simp only [Spec.obPos, if_neg hz0] at hc
  have wrap : ∀ n i, pyIdx n (z - 1) = some i → i < n ∧ (i : Int) = n + z - 1 := by
    intro n i hi
    unfold pyIdx at hi
    rw [if_neg (by omega)] at hi
    split at hi
    · injection hi with hi; omega
    · cases hi
  have zero : ∀ n i, pyIdx n 0 = some i → i < n ∧ i = 0 := by
    intro n i hi
    unfold pyIdx at hi
    rw [if_pos (Int.le_refl 0)] at hi
    split at hi
    · injection hi with hi; omega
    · cases hi
  rcases hside with e | e
  · subst e
    simp only [Spec.obCell, Spec.obIndex, if_neg hz0, reduceCtorEq, if_false] at hc
    unfold Mat.atI at hc
    cases hi : pyIdx M.rows ((0 : Nat) : Int) with
    | none => rw [hi] at hc; cases hc
    | some i =>
      rw [hi] at hc
      cases hj : pyIdx M.cols (z - 1) with
      | none => rw [hj] at hc; cases hc
      | some j =>
        rw [hj] at hc
        injection hc with hc
        obtain ⟨a1, a2⟩ := zero _ _ hi
        obtain ⟨b1, b2⟩ := wrap _ _ hj
        exact ⟨i, j, a1, b1, hc.symm, fun _ => ⟨a2, b2⟩, fun e => by cases e⟩
  · subst e
    simp only [Spec.obCell, Spec.obIndex, if_neg hz0, reduceCtorEq, if_false] at hc
    unfold Mat.atI at hc
    cases hi : pyIdx M.rows (z - 1) with
    | none => rw [hi] at hc; cases hj : pyIdx M.cols ((0 : Nat) : Int) <;> (rw [hj] at hc; cases hc)
    | some i =>
      rw [hi] at hc
      cases hj : pyIdx M.cols ((0 : Nat) : Int) with
      | none => rw [hj] at hc; cases hc
      | some j =>
        rw [hj] at hc
        injection hc with hc
        obtain ⟨a1, a2⟩ := zero _ _ hj
        obtain ⟨b1, b2⟩ := wrap _ _ hi
        exact ⟨i, j, b1, a1, hc.symm, (fun e => by cases e), fun _ => ⟨a2, b2⟩⟩

/-! ## C55: order in the file -/

/-- The order MITgcm reads: position fastest, then depth, then time. -/
def Spec.obcsOrder [F64 F] (A : Arr3 F) (bytes : List Byte) : Prop :=
  ∀ p d t, p < A.n0 → d < A.n1 → t < A.n2 →
    Spec.beDouble bytes (p + A.n0 * (d + A.n1 * t)) = some (F64.toBits (A.get p d t)).toNat

/-- Bytes in the documented order and in the order of the file: position 1 has the value of the second level. -/
theorem orders_agree [F64 F] {A : Arr3 F} {bytes : List Byte} (hb : Spec.BytesOf A bytes) (hc : Spec.obcsOrder A bytes)
    (h0 : 2 ≤ A.n0) (h1 : 1 ≤ A.n1) (h2 : 1 ≤ A.n2) :
    (2 ≤ A.n2 → F64.toBits (A.get 1 0 0) = F64.toBits (A.get 0 0 1)) ∧
    (A.n2 = 1 → 2 ≤ A.n1 → F64.toBits (A.get 1 0 0) = F64.toBits (A.get 0 1 0)) := by
  have c := hc 1 0 0 h0 h1 h2
  have c : Spec.beDouble bytes 1 = some (F64.toBits (A.get 1 0 0)).toNat := by simpa using c
  refine ⟨fun h => ?_, fun h h' => ?_⟩
  · have := hb.2 0 0 1 (by omega) h1 h
    have : Spec.beDouble bytes 1 = some (F64.toBits (A.get 0 0 1)).toNat := by simpa using this
    rw [this] at c
    injection c with c
    exact BitVec.eq_of_toNat_eq c.symm
  · have := hb.2 0 1 0 (by omega) (by omega) h2
    have : Spec.beDouble bytes 1 = some (F64.toBits (A.get 0 1 0)).toNat := by simpa [h] using this
    rw [this] at c
    injection c with c
    exact BitVec.eq_of_toNat_eq c.symm

/-- **C55** (violation).  Boundary files of a successful call have time fastest, then depth, then position.  They are not in the documented order
unless values coincide: with at least two positions and two time steps, the value of position 1 and that of time step 1 must be the same; with
one time step and at least two depths, the value of position 1 and that of depth 1. -/
theorem C55_documented_order_fails [F64 F] (geod : Geod F) (fs : Files F) (fuel : Nat) (xe : Xesmf F W) (runs : Text → RunDir F)
    (a : ObcsArgs F) (k k' : Disk W) (pdir dir : Text) (hdir : a.parentResultsdir = some pdir) (hod : Spec.OutDir a pdir dir)
    (h : getobcs geod fs fuel xe runs a k = some (k', .ok ())) (resp : Resp) (hp : Spec.Present (runs pdir).names resp) (s : Side) :
    ∃ r ni nj times A bytes, k'.out (Spec.inDir dir (Spec.obName s resp)) = some bytes ∧
      Spec.Boundary xe r (runs pdir) a.ob ni nj times resp s A ∧ Spec.BytesOf A bytes ∧
      (2 ≤ A.n0 → 2 ≤ A.n2 → 1 ≤ A.n1 → F64.toBits (A.get 1 0 0) ≠ F64.toBits (A.get 0 0 1) → ¬ Spec.obcsOrder A bytes) ∧
      (2 ≤ A.n0 → A.n2 = 1 → 2 ≤ A.n1 → F64.toBits (A.get 1 0 0) ≠ F64.toBits (A.get 0 1 0) → ¬ Spec.obcsOrder A bytes) := by
  obtain ⟨pd, pn, pm, gd, ni, nj, r, times, h1, h2, h3, h4, h5, hout⟩ := getobcs_spec hdir hod h
  obtain ⟨A, bytes, e1, e2, e3⟩ := hout.1 resp hp s
  refine ⟨r, ni, nj, times, A, bytes, e1, e3, e2, fun a0 a2 a1 hne hc => hne ?_, fun a0 a2 a1 hne hc => hne ?_⟩
  · exact (orders_agree e2 hc a0 a1 (by omega)).1 a2
  · exact (orders_agree e2 hc a0 (by omega) (by omega)).2 a2 a1

/-- **C55** (the part that holds): a boundary file with one depth and one time step is in the documented order.
Missing from the full statement: all other sizes (refuted above unless there is only one position). -/
theorem C55_single_level_partial [F64 F] (geod : Geod F) (fs : Files F) (fuel : Nat) (xe : Xesmf F W) (runs : Text → RunDir F)
    (a : ObcsArgs F) (k k' : Disk W) (pdir dir : Text) (hdir : a.parentResultsdir = some pdir) (hod : Spec.OutDir a pdir dir)
    (h : getobcs geod fs fuel xe runs a k = some (k', .ok ())) (resp : Resp) (hp : Spec.Present (runs pdir).names resp) (s : Side) :
    ∃ r ni nj times A bytes, k'.out (Spec.inDir dir (Spec.obName s resp)) = some bytes ∧
      Spec.Boundary xe r (runs pdir) a.ob ni nj times resp s A ∧ (A.n1 = 1 → A.n2 = 1 → Spec.obcsOrder A bytes) := by
  obtain ⟨pd, pn, pm, gd, ni, nj, r, times, h1, h2, h3, h4, h5, hout⟩ := getobcs_spec hdir hod h
  obtain ⟨A, bytes, e1, e2, e3⟩ := hout.1 resp hp s
  refine ⟨r, ni, nj, times, A, bytes, e1, e3, fun h1 h2 p d t hp hd ht => ?_⟩
  have := e2.2 p d t hp hd ht
  have ed : d = 0 := by omega
  have et : t = 0 := by omega
  subst ed et
  rw [h1, h2] at this
  simpa using this

/-! ## C57: weights -/

/-- **C57** (the part that holds).  In a results directory without weight files, a successful call uses weights computed from its own
grids. Missing from the full statement: directories with weight files (refuted by `C57_stale_weights`). -/
theorem C57_fresh_directory_partial [F64 F] (geod : Geod F) (fs : Files F) (fuel : Nat) (xe : Xesmf F W)
    (runs : Text → RunDir F) (a : ObcsArgs F) (k k' : Disk W) (pdir dir : Text) (hdir : a.parentResultsdir = some pdir)
    (hod : Spec.OutDir a pdir dir) (hfresh : ∀ si so kd, k.weights (Spec.weightPath dir si so kd) = none)
    (h : getobcs geod fs fuel xe runs a k = some (k', .ok ())) :
    ∃ pd pn pm gd ni nj r times, Spec.ParentGrid fs a pd pn pm ∧ Spec.RegionalGrid fs a gd ni nj ∧
      (∀ kd, ∃ gin gout, Spec.PointsOf geod fs fuel pd pn pm kd gin ∧ Spec.PointsOf geod fs fuel gd ni nj kd gout ∧
        xe.build gin gout = .ok (r kd).w) ∧
      Spec.ObcsOutput xe r (runs pdir) a.ob ni nj times dir k k' := by
  obtain ⟨pd, pn, pm, gd, ni, nj, r, times, h1, h2, h3, h4, h5, hout⟩ := getobcs_spec hdir hod h
  refine ⟨pd, pn, pm, gd, ni, nj, r, times, h1, h2, fun kd => ?_, hout⟩
  obtain ⟨-, -, gin, gout, a1, a2, -, -, a3⟩ := h3 kd
  exact ⟨gin, gout, a1, a2, a3 (hfresh _ _ _)⟩

theorem openRegridder_stored {xe : Xesmf F W} {dir : Text} {gin gout : Mat F × Mat F} {kd : Kind} {k : Disk W}
    (h : k.weights (Spec.weightPath dir (gin.1.rows, gin.1.cols) (gout.1.rows, gout.1.cols) kd) ≠ none) (b) :
    ∃ w, openRegridder xe dir gin gout (Spec.kindText kd) k = some (k, .ok w) ∧
      openRegridder { xe with build := b } dir gin gout (Spec.kindText kd) k = some (k, .ok w) := by
  unfold openRegridder
  dsimp only
  rw [← weightPath_eq] at h
  cases hw : k.weights (pathJoin dir (weightfilename interpMeth (gin.1.rows, gin.1.cols) (gout.1.rows, gout.1.cols)
      (Spec.kindText kd) ".nc".toList)) with
  | none => exact absurd hw h
  | some w => exact ⟨_, rfl, rfl⟩

theorem responses_build [F64 F] (xe : Xesmf F W) (b) (r : Kind → Regridder W) (run : RunDir F) (obs : Side → List Int × Bool)
    (ni nj : Nat) (times : List Nat) (dir : Text) (l : List Resp) :
    responses { xe with build := b } r run obs ni nj times dir l = responses xe r run obs ni nj times dir l := by
  induction l with
  | nil => rfl
  | cons a t ih =>
    have e : assemble { xe with build := b } r run obs ni nj times a = assemble xe r run obs ni nj times a := rfl
    funext k
    unfold responses
    rw [e, ih]

/-- **C57** (violation).  Let the directory already have weight files under the names that the call would create in some directory
(because an earlier call had grids of the same shapes).  Then the weights of the call's own grids play no role: the call does
the same whatever function `b` computes weights from grids. -/
theorem C57_stale_weights [F64 F] (geod : Geod F) (fs : Files F) (fuel : Nat) (xe : Xesmf F W) (runs : Text → RunDir F)
    (a : ObcsArgs F) (k0 k0' k : Disk W) (h0 : getobcs geod fs fuel xe runs a k0 = some (k0', .ok ()))
    (hk : ∀ n, k0'.weights n ≠ none → k.weights n ≠ none) (b) :
    getobcs geod fs fuel { xe with build := b } runs a k = getobcs geod fs fuel xe runs a k := by
  obtain ⟨pdir, p, g, obs, r, k1, times, h1, hne, h3, h4, h5, h6, h7, h8, h9⟩ := getobcs_ok h0
  obtain ⟨w0, -⟩ := output_ok h5 h8 h9
  obtain ⟨-, xp, yp, xg, yg, -, -, -, -, hw⟩ := regridders_ok h6
  obtain ⟨cp, cg, dp, dg, up, ug, vp, vg, ka, kb, hcp, hcg, ht, hdp, hdg, hrp, hrg, hup, hug, hu, hvp, hvg, hv⟩ := regridders_inv h6
  obtain ⟨t1, t2, -⟩ := openRegridder_ok ht
  obtain ⟨u1, u2, -⟩ := openRegridder_ok hu
  obtain ⟨v1, v2, -⟩ := openRegridder_ok hv
  have present : ∀ kd, k.weights (Spec.weightPath (resultsDirOf a pdir) (r kd).shapeIn (r kd).shapeOut kd) ≠ none := by
    intro kd
    apply hk
    rw [w0, (hw kd).1]
    intro e; cases e
  have pt := present .tracer
  have pu := present .u
  have pv := present .v
  rw [t1, t2] at pt
  rw [u1, u2] at pu
  rw [v1, v2] at pv
  obtain ⟨wt, et, et'⟩ := openRegridder_stored (xe := xe) pt b
  obtain ⟨wu, eu, eu'⟩ := openRegridder_stored (xe := xe) pu b
  obtain ⟨wv, ev, ev'⟩ := openRegridder_stored (xe := xe) pv b
  have hreg : regridders geod fs fuel { xe with build := b } (resultsDirOf a pdir) p g k =
      regridders geod fs fuel xe (resultsDirOf a pdir) p g k := by
    unfold regridders
    rw [hcp, hcg]
    simp only [Act.bind, Act.lift]
    rw [show "tracer".toList = Spec.kindText .tracer from rfl, et, et']
    simp only [hdp W k, hdg W k, hup, hug]
    rw [show ['U'] = Spec.kindText .u from rfl, eu, eu']
    simp only [hvp, hvg]
    rw [show ['V'] = Spec.kindText .v from rfl, ev, ev']
  unfold getobcs
  rw [h1]
  cases pdir with
  | nil => exact absurd rfl hne
  | cons c d =>
    dsimp only
    simp only [Act.bind, Act.lift, h3, h4, h5, hreg, responses_build]

/-! ## C68: time slices -/

/-- **C68** (violation).  The number of time slices of every boundary file is the number of `T.*.data` files.  When MITgcm wrote tiles
(`T.<step>.<bi>.<bj>.data`) every time step is therefore repeated once per tile. -/
theorem C68_slice_per_file [F64 F] (geod : Geod F) (fs : Files F) (fuel : Nat) (xe : Xesmf F W) (runs : Text → RunDir F)
    (a : ObcsArgs F) (k k' : Disk W) (pdir dir : Text) (hdir : a.parentResultsdir = some pdir)
    (hod : Spec.OutDir a pdir dir)
    (files : List (Nat × Text)) (htile : ∀ x ∈ files, ∀ c ∈ x.2.head?, c.isDigit = false)
    (hfiles : (runs pdir).names.filter (fun n => decide (Spec.IsResult .T n)) = files.map fun x => Spec.resultName "T".toList x.1 x.2)
    (h : getobcs geod fs fuel xe runs a k = some (k', .ok ())) (s : Side) :
    ∃ (A : Arr3 F) (bytes : List Byte), k'.out (Spec.inDir dir ("OB".toList ++ Spec.sideLetter s ++ "t".toList)) = some bytes ∧ Spec.BytesOf A bytes ∧
      A.n2 = files.length ∧
      ∀ (steps tiles : List Nat) (tileText : Nat → Text),
        files = steps.flatMap (fun st => tiles.map fun b => (st, tileText b)) → A.n2 = steps.length * tiles.length := by
  obtain ⟨pd, pn, pm, gd, ni, nj, r, times, -, -, -, hperm, -, hne, hout⟩ :=
    C54_assembly geod fs fuel xe runs a k k' pdir dir hdir hod files htile hfiles h
  have hpres : Spec.Present (runs pdir).names .T := by
    cases hf : files with
    | nil => rw [hf] at hperm; exact absurd (List.Perm.eq_nil hperm) hne
    | cons x t =>
      have : Spec.resultName "T".toList x.1 x.2 ∈ (runs pdir).names.filter (fun n => decide (Spec.IsResult .T n)) := by
        rw [hfiles, hf]; simp
      obtain ⟨m1, m2⟩ := List.mem_filter.1 this
      exact ⟨_, m1, of_decide_eq_true m2⟩
  obtain ⟨A, bytes, hA, hb, -, e2, -⟩ := hout.1 .T hpres s
  have hlen : A.n2 = files.length := by rw [e2, hperm.length_eq]; simp
  refine ⟨A, bytes, hA, hb, hlen, fun steps tiles tt hst => ?_⟩
  rw [hlen, hst, length_flatMap_const _ _ tiles.length (by simp)]

/-! ## A concrete run -/

/-- A tile of `2 x 1` cells with south-west corner `(x,0)`. -/
def exObTile (x : Int) : MatDict Toy where
  xg := .ofC ⟨3, 2, fun i _ => .ofInt (x + 10 * i)⟩
  yg := .ofC ⟨3, 2, fun _ j => .ofInt (10 * j)⟩
  rest := fun
    | .XC => .arr ⟨2, 1, fun i _ => .ofInt (x + 5 + 10 * i)⟩
    | .YC => .arr ⟨2, 1, fun _ _ => .ofInt 5⟩
    | _ => .absent

/-- An interpolation package: the weight is the difference of the first longitudes. -/
def exXe : Xesmf Toy Toy where
  build p g := .ok (Arith.sub (g.1.get 0 0) (p.1.get 0 0))
  apply w _ so m := .ok ⟨so.1, so.2, fun i j => Arith.add (Arith.add (m.get 0 0) (Arith.mul w (.ofInt 1000))) (.ofInt (10 * i + j))⟩

/-- Results at steps 3 and 12, two depths: value `100*step + depth`. -/
def exResults (names : List String) : Text → RunDir Toy := fun _ =>
  { names := names.map String.toList
    grid := fun _ => none
    read := fun _ t => .ok ⟨2, 1, some 2, fun _ _ d => .ofInt (100 * t + d)⟩ }

def exObArgs (x : Int) (ob : Side → ObArg) : ObcsArgs Toy where
  strict := true
  parentFile := none
  niParent := none
  njParent := none
  parentMatrices := some (exObTile 0)
  regionalFile := some ""
  niRegional := none
  njRegional := none
  regionalMatrices := some (exObTile x)
  parentResultsdir := some "run/".toList
  ob := ob
  resultsdir := none

def exNames : List String := ["T.0000000012.data", "T.0000000003.data", "T.0000000003.meta", "U.0000000012.data", "U.0000000003.data"]

def exNoFiles : Files Toy := ⟨fun _ => none, fun _ => .error .ioError⟩

def exDisk : Disk Toy := ⟨fun _ => none, fun _ => none⟩

/-- The doubles in the named files afterwards. -/
def exShow (r : Option (Disk Toy × Py Unit)) (files : List String) : Option (List (Option (List Nat))) :=
  match r with
  | some (k, .ok ()) => some (files.map fun f => (k.out f.toList).map fun b =>
      (List.range (b.length / 8)).map fun q => (Spec.beDouble b q).getD 0)
  | _ => none

def exCall (x : Int) (ob : Side → ObArg) (names : List String) (k : Disk Toy) : Option (Disk Toy × Py Unit) :=
  getobcs Toy.geod exNoFiles 10 exXe (exResults names) (exObArgs x ob) k

set_option maxRecDepth 40000 in
/-- C53, C54, C57 (fresh directory): the call succeeds.  Two times (sorted), two depths, time fastest; the west `u` value is on face 1;
no file for `S`, of which there are no results. -/
example : exShow (exCall 1 (fun _ => .missing) exNames exDisk)
      ["run_obcs/OBNt", "run_obcs/OBWt", "run_obcs/OBWu", "run_obcs/OBEu", "run_obcs/OBSs"] =
    some [some [1300, 2200, 1301, 2201, 1310, 2210, 1311, 2211], some [1300, 2200, 1301, 2201],
      some [1310, 2210, 1311, 2211], some [1310, 2210, 1311, 2211], none] := by decide +kernel

set_option maxRecDepth 40000 in
/-- C52: index -1 on E and W of a tile of two rows: E gives cell 1; W gives cell 0 instead of 1. -/
example : exShow (exCall 1 (fun s => if s = .N ∨ s = .S then .missing else .vec [-1]) exNames exDisk)
      ["run_obcs/OBEt", "run_obcs/OBWt"] =
    some [some [1310, 2210, 1311, 2211], some [1300, 2200, 1301, 2201]] := by decide +kernel

set_option maxRecDepth 40000 in
/-- C57: the call for the tile at 2 gives other values in an empty directory than in the directory left by the call for the tile at 1. -/
example : exShow (exCall 2 (fun _ => .missing) exNames exDisk) ["run_obcs/OBWt"] = some [some [2300, 3200, 2301, 3201]] ∧
    exShow ((exCall 1 (fun _ => .missing) exNames exDisk).bind fun r => exCall 2 (fun _ => .missing) exNames r.1) ["run_obcs/OBWt"] =
      some [some [1300, 2200, 1301, 2201]] := by decide +kernel

set_option maxRecDepth 40000 in
/-- C68: two tiles per step: four slices for two steps. -/
example : exShow (exCall 1 (fun _ => .missing) ["T.0000000012.001.001.data", "T.0000000003.001.001.data",
      "T.0000000012.002.001.data", "T.0000000003.002.001.data"] exDisk) ["run_obcs/OBWt"] =
    some [some [1300, 1300, 2200, 2200, 1301, 1301, 2201, 2201]] := by decide +kernel

/-- The file names of C54 and C68. -/
example : Spec.resultName "T".toList 12 [] = "T.0000000012.data".toList ∧
    Spec.resultName "T".toList 3 ".001.001".toList = "T.0000000003.001.001.data".toList := by decide +kernel

theorem exCall_ok : ∃ k', exCall 1 (fun _ => .missing) exNames exDisk = some (k', .ok ()) := by
  have h : (match exCall 1 (fun _ => .missing) exNames exDisk with
    | some (_, .ok ()) => true
    | _ => false) = true := by decide +kernel
  cases hc : exCall 1 (fun _ => .missing) exNames exDisk with
  | none => rw [hc] at h; cases h
  | some x =>
    obtain ⟨k', r⟩ := x
    rw [hc] at h
    cases r with
    | error e => cases h
    | ok u => exact ⟨k', rfl⟩

theorem exOutDir (x : Int) (ob : Side → ObArg) : Spec.OutDir (exObArgs x ob) "run/".toList "run_obcs".toList :=
  ⟨fun d h => (by cases h), fun _ => ⟨"run".toList, "/".toList, by decide, by decide, by decide, by decide⟩⟩

theorem exPresent : Spec.Present (exResults exNames "run/".toList).names .T :=
  ⟨"T.0000000012.data".toList, by decide, "0000000012".toList, by decide⟩

/-- The hypotheses of C52-C55, C57 and C68 are met by this call.  The file of C55 has two positions and two time steps; the first two doubles
are the values of the two time steps, 1300 and 2200, while position 1 has 1310 (shown above). -/
example : ∃ k' r ni nj times A bytes, exCall 1 (fun _ => .missing) exNames exDisk = some (k', .ok ()) ∧
    k'.out "run_obcs/OBNt".toList = some bytes ∧
    Spec.Boundary exXe r (exResults exNames "run/".toList) (fun _ => .missing) ni nj times .T .N A ∧ Spec.BytesOf A bytes := by
  obtain ⟨k', h⟩ := exCall_ok
  obtain ⟨r, ni, nj, times, A, bytes, h1, h2, h3, -⟩ := C55_documented_order_fails _ _ _ _ _ _ _ _ _ _ rfl (exOutDir 1 _) h .T exPresent .N
  exact ⟨k', r, ni, nj, times, A, bytes, h, h1, h2, h3⟩

/-- The file list of C54 and C68 for this directory. -/
example : (exResults exNames "run/".toList).names.filter (fun n => decide (Spec.IsResult .T n)) =
    [(12, []), (3, [])].map fun x => Spec.resultName "T".toList x.1 x.2 := by
  rw [← filter_eq]; decide +kernel

/-- C51: arguments without a parent grid; the regional grid and the results are those of the successful call. -/
example : ∃ k' e, getobcs Toy.geod exNoFiles 10 exXe (exResults exNames)
    { exObArgs 1 (fun _ => .missing) with parentMatrices := none } exDisk = some (k', .error e) ∧ k'.out = exDisk.out :=
  C51_parent_from_results_raises _ _ _ _ _ _ (.inl rfl) rfl _

/-- C52: vectors of the documented length 2 on the north side. -/
example : ∃ e, exCall 1 (fun s => if s = .N then .vec [1, 1] else .missing) exNames exDisk = some (exDisk, .error e) :=
  C52_vectors_rejected _ _ _ _ _ _ .N [1, 1] (by decide) rfl _

end SG
