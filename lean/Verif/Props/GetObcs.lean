import Verif.Lemmas.GetObcs
import Verif.Spec.Obcs
import Verif.Props.Mds2Mitgrid
import Verif.Props.Regrid
/-! # Properties of `getobcs` (C51-C57, C68) -/

set_option linter.unusedSectionVars false
namespace SG
variable {F W : Type} [PyFloat F]

/-! ## C56: weight file names -/

/-- **C56**.  For a given interpolation method, weight file names determine the input shape, the output shape and the response type. -/
theorem C56_weightfilename_injective (meth ext ext' : Text) (i1 o1 i2 o2 : Nat × Nat) (r1 r2 : Text)
    (h : weightfilename meth i1 o1 r1 ext = weightfilename meth i2 o2 r2 ext') : i1 = i2 ∧ o1 = o2 ∧ r1 = r2 := by
  obtain ⟨a, b⟩ := i1; obtain ⟨c, d⟩ := o1; obtain ⟨a', b'⟩ := i2; obtain ⟨c', d'⟩ := o2
  simp only [weightfilename, List.append_assoc, List.cons_append] at h
  have h := List.append_cancel_left h
  injection h with _ h
  have hx : ∀ n, 'x' ∉ natText n := not_mem_natText (by decide)
  have hu : ∀ n, '_' ∉ natText n := not_mem_natText (by decide)
  obtain ⟨e1, h⟩ := split_unique (hx _) (hx _) h
  obtain ⟨e2, h⟩ := split_unique (hu _) (hu _) h
  obtain ⟨e3, h⟩ := split_unique (hx _) (hx _) h
  obtain ⟨e4, h⟩ := split_unique (hu _) (hu _) h
  rw [natText_inj e1, natText_inj e2, natText_inj e3, natText_inj e4]
  exact ⟨rfl, rfl, List.append_cancel_right h⟩

example : weightfilename interpMeth (20, 16) (40, 32) "tracer".toList ".nc".toList =
    "bilinear_20x16_40x32_tracer.nc".toList := by decide

/-! ## C51: parent grid from the results directory -/

/-- The call returns with an exception and writes no boundary file. -/
def RaisesQuietly {α : Type} (m : Act (Disk W) α) : Prop :=
  ∀ k, ∃ k' e, m k = some (k', .error e) ∧ k'.out = k.out

theorem raises_bind {α β : Type} (m : Act (Disk W) α) (f : α → Act (Disk W) β)
    (hm : ∀ k, ∃ k' r, m k = some (k', r) ∧ k'.out = k.out ∧ ∀ a, r = .ok a → RaisesQuietly (f a)) :
    RaisesQuietly (Act.bind m f) := by
  intro k
  obtain ⟨k', r, h1, h2, h3⟩ := hm k
  cases r with
  | error e => exact ⟨k', e, Act.bind_of_error h1, h2⟩
  | ok a =>
    obtain ⟨k'', e, h4, h5⟩ := h3 a rfl k'
    exact ⟨k'', e, (Act.bind_of_ok h1).trans h4, h5.trans h2⟩

theorem raises_lift_bind {α β : Type} (x : Py α) (f : α → Act (Disk W) β)
    (h : ∀ a, x = .ok a → RaisesQuietly (f a)) : RaisesQuietly (Act.bind (Act.lift x) f) :=
  raises_bind _ _ fun k => ⟨k, x, rfl, rfl, h⟩

theorem openRegridder_returns (xe : Xesmf F W) (dir : Text) (gin gout : Mat F × Mat F) (resp : Text) (k : Disk W) :
    ∃ k' r, openRegridder xe dir gin gout resp k = some (k', r) ∧ k'.out = k.out := by
  unfold openRegridder
  dsimp only
  split
  · exact ⟨_, _, rfl, rfl⟩
  · split
    · exact ⟨_, _, rfl, rfl⟩
    · exact ⟨_, _, rfl, rfl⟩

/-- `regrid` with coinciding corner queries always raises. -/
theorem regrid_same_corner [F64 F] (geod : Geod F) (fs : Files F) (fuel : Nat) (a : RegridArgs F)
    (h1 : a.lon1 = a.lon2) (h2 : a.lat1 = a.lat2) : ∃ m e, regrid geod fs fuel a = some (m, .error e) := by
  cases hs : readSource fs a with
  | error e => exact ⟨a.matrices, e, by unfold regrid; rw [hs]⟩
  | ok d =>
    cases hn : nearest geod a.lon1 a.lat1 d.xg d.yg with
    | error e =>
      have : regridXY geod a.lon1 a.lat1 a.lon2 a.lat2 a.lonSub a.latSub fuel (d.xg, d.yg) =
          some ((d.xg, d.yg), .error e) := by
        unfold regridXY locate
        rw [hn]
        rfl
      unfold regrid; rw [hs]
      dsimp only
      rw [this]
      exact ⟨_, _, rfl⟩
    | ok c =>
      obtain ⟨i, j, x⟩ := c
      exact ⟨_, _, C34_regrid_rejects_degenerate geod fs fuel a d hs i j i j x x hn (by rw [← h1, ← h2]; exact hn) (Or.inl rfl)⟩

/-- Both far corners of an array read by `mds2mitgrid` are padding. -/
theorem mds_corners (rd : Field → Option (Mat F)) (f : Field) (hr : ∀ n, Spec.nrows f n = n + 1)
    (hc : ∀ n, Spec.ncols f n = n + 1) (m : Mat F) (h : (mds2mitgrid rd).1.arr f = .ok m) :
    m.atI 0 (-1) = .ok Arith.zero ∧ m.atI (-1) 0 = .ok Arith.zero := by
  obtain ⟨h1, h2⟩ := C50_padding rd f
  unfold Grid.arr at h
  cases hf : rd f with
  | none => rw [h1 hf] at h; cases h
  | some x =>
    obtain ⟨a, ha, hrow, hcol, -, hz⟩ := h2 x hf
    rw [ha] at h
    injection h with h; subst h
    rw [hr] at hrow; rw [hc] at hcol
    have p1 : pyIdx a.rows 0 = some 0 := by
      unfold pyIdx; rw [hrow, if_pos (Int.le_refl 0), if_pos (by omega)]; rfl
    have p2 : pyIdx a.cols (-1) = some x.rows := by
      unfold pyIdx; rw [hcol, if_neg (by decide), if_pos (by omega)]; congr 1; omega
    have p3 : pyIdx a.rows (-1) = some x.cols := by
      unfold pyIdx; rw [hrow, if_neg (by decide), if_pos (by omega)]; congr 1; omega
    have p4 : pyIdx a.cols 0 = some 0 := by
      unfold pyIdx; rw [hcol, if_pos (Int.le_refl 0), if_pos (by omega)]; rfl
    unfold Mat.atI
    rw [p1, p2, p3, p4]
    exact ⟨by rw [← hz 0 x.rows (Or.inr (Nat.le_refl _))], by rw [← hz x.cols 0 (Or.inl (Nat.le_refl _))]⟩

theorem doubled_mds_raises [F64 F] (geod : Geod F) (fs : Files F) (fuel : Nat) (rd : Field → Option (Mat F)) (ni nj : Nat) :
    RaisesQuietly (W := W) (doubled geod fs fuel (.ofGrid .ofC (mds2mitgrid rd).1) ni nj) := by
  unfold doubled
  apply raises_lift_bind
  intro a ha k
  obtain ⟨x, hx, ha⟩ := bind_ok_inv ha
  obtain ⟨lon1, hlon1, ha⟩ := bind_ok_inv ha
  obtain ⟨y, hy, ha⟩ := bind_ok_inv ha
  obtain ⟨lat1, hlat1, ha⟩ := bind_ok_inv ha
  obtain ⟨lon2, hlon2, ha⟩ := bind_ok_inv ha
  obtain ⟨lat2, hlat2, ha⟩ := bind_ok_inv ha
  cases ha
  have corner : ∀ f (_ : ∀ n, Spec.nrows f n = n + 1) (_ : ∀ n, Spec.ncols f n = n + 1) (x : NArr F),
      ((mds2mitgrid rd).1.arr f).map NArr.ofC = .ok x → x.mat.atI 0 (-1) = .ok Arith.zero ∧ x.mat.atI (-1) 0 = .ok Arith.zero := by
    intro f hr hc x hx
    cases hm : (mds2mitgrid rd).1.arr f with
    | error e => rw [hm] at hx; cases hx
    | ok m =>
      rw [hm] at hx
      cases hx
      exact mds_corners rd f hr hc m hm
  obtain ⟨cx1, cx2⟩ := corner .XG (fun _ => rfl) (fun _ => rfl) x hx
  obtain ⟨cy1, cy2⟩ := corner .YG (fun _ => rfl) (fun _ => rfl) y hy
  rw [cx1] at hlon1; rw [cx2] at hlon2; rw [cy1] at hlat1; rw [cy2] at hlat2
  cases hlon1; cases hlon2; cases hlat1; cases hlat2
  obtain ⟨m, e, he⟩ := regrid_same_corner geod fs fuel
    (⟨false, none, none, none, some ⟨x, y, (ObGrid.ofGrid .ofC (mds2mitgrid rd).1).rest⟩, some ni, some nj, Arith.zero, Arith.zero,
      Arith.zero, Arith.zero, 2, 2⟩ : RegridArgs F) rfl rfl
  refine ⟨k, e, ?_, rfl⟩
  rw [he]

/-- **C51** (violation).  Without parent grid arguments a call raises and writes no boundary file, whatever the results directory, the other
arguments, the interpolation package and the geodesic solver. -/
theorem C51_parent_from_results_raises [F64 F] (geod : Geod F) (fs : Files F) (fuel : Nat) (xe : Xesmf F W)
    (runs : Text → RunDir F) (a : ObcsArgs F) (hfile : a.parentFile = none ∨ a.parentFile = some "")
    (hmat : a.parentMatrices = none) (k : Disk W) :
    ∃ k' e, getobcs geod fs fuel xe runs a k = some (k', .error e) ∧ k'.out = k.out := by
  have hf : strTruthy a.parentFile = none := by rcases hfile with h | h <;> rw [h] <;> rfl
  rcases hd : a.parentResultsdir with _ | ⟨_ | ⟨c, d⟩⟩
  · exact ⟨k, .valueError, by unfold getobcs; rw [hd]; rfl, rfl⟩
  · exact ⟨k, .valueError, by unfold getobcs; rw [hd]; rfl, rfl⟩
  · unfold getobcs; rw [hd]; dsimp only
    refine raises_lift_bind _ _ (fun p hp => ?_) k
    have hp : p = (ObGrid.ofGrid .ofC (mds2mitgrid (runs (c :: d)).grid).1, (mds2mitgrid (runs (c :: d)).grid).2) := by
      unfold parentGrid fileOrMatrices at hp
      rw [hf, hmat] at hp
      cases hp; rfl
    subst hp
    refine raises_lift_bind _ _ (fun g _ => ?_)
    refine raises_lift_bind _ _ (fun obs _ => ?_)
    have hr : RaisesQuietly (regridders geod fs fuel xe (resultsDirOf a (c :: d))
        (ObGrid.ofGrid .ofC (mds2mitgrid (runs (c :: d)).grid).1, (mds2mitgrid (runs (c :: d)).grid).2) g) := by
      refine raises_lift_bind _ _ (fun cp _ => ?_)
      refine raises_lift_bind _ _ (fun cg _ => ?_)
      refine raises_bind _ _ (fun k => ?_)
      obtain ⟨k', r, h1, h2⟩ := openRegridder_returns xe (resultsDirOf a (c :: d)) cp cg "tracer".toList k
      refine ⟨k', r, h1, h2, fun rt _ => ?_⟩
      refine raises_bind _ _ (fun k => ?_)
      obtain ⟨k', e, h1, h2⟩ := doubled_mds_raises (W := W) geod fs fuel (runs (c :: d)).grid
        (mds2mitgrid (runs (c :: d)).grid).2.1 (mds2mitgrid (runs (c :: d)).grid).2.2 k
      exact ⟨k', .error e, h1, h2, fun a h => by cases h⟩
    refine raises_bind _ _ (fun k => ?_)
    obtain ⟨k', e, h1, h2⟩ := hr k
    exact ⟨k', .error e, h1, h2, fun a h => by cases h⟩

/-! ## C52: index vectors -/

/-- The side's arguments other than that of `s`. -/
def withOb (a : ObcsArgs F) (s : Side) (x : ObArg) : ObcsArgs F :=
  { a with ob := fun s' => if s' = s then x else a.ob s' }

theorem getobcs_ob_error [F64 F] (geod : Geod F) (fs : Files F) (fuel : Nat) (xe : Xesmf F W)
    (runs : Text → RunDir F) (a : ObcsArgs F) (h : ∀ ni nj, ∃ e, obVectors a.ob ni nj = .error e) (k : Disk W) :
    ∃ e, getobcs geod fs fuel xe runs a k = some (k, .error e) := by
  rcases hd : a.parentResultsdir with _ | ⟨_ | ⟨c, d⟩⟩
  · exact ⟨.valueError, by unfold getobcs; rw [hd]; rfl⟩
  · exact ⟨.valueError, by unfold getobcs; rw [hd]; rfl⟩
  · unfold getobcs; rw [hd]; dsimp only
    cases hp : parentGrid fs (runs (c :: d)) a with
    | error e => exact ⟨e, rfl⟩
    | ok p =>
      cases hg : regionalGrid fs a with
      | error e => exact ⟨e, rfl⟩
      | ok g =>
        obtain ⟨e, he⟩ := h g.2.1 g.2.2
        refine ⟨e, ?_⟩
        unfold Act.bind Act.lift
        dsimp only
        rw [he]

/-- An argument that `getobcs` accepts for a boundary. -/
theorem obVectors_error (ob : Side → ObArg) (ni nj : Nat) (s : Side) (e : PyErr)
    (h : obVector s ni nj (ob s) = .error e) : ∃ e, obVectors ob ni nj = .error e := by
  unfold obVectors
  cases hn : obVector .N ni nj (ob .N) with
  | error e => exact ⟨e, rfl⟩
  | ok n =>
    cases hs : obVector .S ni nj (ob .S) with
    | error e => exact ⟨e, rfl⟩
    | ok s' =>
      cases he : obVector .E ni nj (ob .E) with
      | error e => exact ⟨e, rfl⟩
      | ok e' =>
        cases hw : obVector .W ni nj (ob .W) with
        | error e => exact ⟨e, rfl⟩
        | ok w =>
          cases s
          · rw [hn] at h; cases h
          · rw [hs] at h; cases h
          · rw [he] at h; cases h
          · rw [hw] at h; cases h

/-- **C52** (violation).  An index vector with two or more elements, on any side, makes the call raise before it does anything. -/
theorem C52_vectors_rejected [F64 F] (geod : Geod F) (fs : Files F) (fuel : Nat) (xe : Xesmf F W)
    (runs : Text → RunDir F) (a : ObcsArgs F) (s : Side) (l : List Int) (hl : 2 ≤ l.length) (hs : a.ob s = .vec l) (k : Disk W) :
    ∃ e, getobcs geod fs fuel xe runs a k = some (k, .error e) := by
  refine getobcs_ob_error geod fs fuel xe runs a (fun ni nj => obVectors_error a.ob ni nj s .valueError ?_) k
  rw [hs]
  match l, hl with
  | _ :: _ :: _, _ => rfl

/-- **C52** (violation).  So does a nonzero int, which is what the command line passes. -/
theorem C52_ints_rejected [F64 F] (geod : Geod F) (fs : Files F) (fuel : Nat) (xe : Xesmf F W)
    (runs : Text → RunDir F) (a : ObcsArgs F) (s : Side) (z : Int) (hz : z ≠ 0) (hs : a.ob s = .scalar z) (k : Disk W) :
    ∃ e, getobcs geod fs fuel xe runs a k = some (k, .error e) := by
  refine getobcs_ob_error geod fs fuel xe runs a (fun ni nj => obVectors_error a.ob ni nj s .typeError ?_) k
  rw [hs]
  exact if_neg hz

/-- **C52** (violation).  A zero vector does not disable a boundary: the call is the same as with the argument missing. -/
theorem C52_zero_is_default [F64 F] (geod : Geod F) (fs : Files F) (fuel : Nat) (xe : Xesmf F W)
    (runs : Text → RunDir F) (a : ObcsArgs F) (s : Side) :
    getobcs geod fs fuel xe runs (withOb a s (.vec [0])) = getobcs geod fs fuel xe runs (withOb a s .missing) ∧
    getobcs geod fs fuel xe runs (withOb a s (.scalar 0)) = getobcs geod fs fuel xe runs (withOb a s .missing) := by
  have key : ∀ x, (∀ ni nj, obVector s ni nj x = obVector s ni nj .missing) →
      getobcs geod fs fuel xe runs (withOb a s x) = getobcs geod fs fuel xe runs (withOb a s .missing) := by
    intro x hx
    have : ∀ ni nj, obVectors (withOb a s x).ob ni nj = obVectors (withOb a s .missing).ob ni nj := by
      intro ni nj
      have : ∀ s', obVector s' ni nj ((withOb a s x).ob s') = obVector s' ni nj ((withOb a s .missing).ob s') := by
        intro s'
        unfold withOb
        dsimp only
        by_cases e : s' = s
        · subst e; rw [if_pos rfl, if_pos rfl, hx]
        · rw [if_neg e, if_neg e]
      unfold obVectors
      rw [this, this, this, this]
    unfold getobcs
    simp only [this]
    rfl
  exact ⟨key _ (fun _ _ => rfl), key _ (fun _ _ => rfl)⟩

/-! ## C53, C54: what is in the boundary files -/

theorem padTo_ok {shape : Nat × Nat} {m m' : Mat F} (h : padTo shape m = .ok m') :
    m'.rows = shape.1 ∧ m'.cols = shape.2 ∧ m.rows ≤ m'.rows ∧ m.cols ≤ m'.cols ∧
      ∀ i j, i < m'.rows → j < m'.cols →
        m'.get i j = if i < m.rows ∧ j < m.cols then m.get i j else Arith.zero := by
  unfold padTo at h
  by_cases hsh : shape = (m.rows, m.cols)
  · rw [if_pos hsh] at h
    injection h with h
    subst h
    refine ⟨by rw [hsh], by rw [hsh], Nat.le_refl _, Nat.le_refl _, fun i j hi hj => ?_⟩
    rw [if_pos ⟨hi, hj⟩]
  · rw [if_neg hsh] at h
    unfold Mat.setBlock Mat.full at h
    dsimp only at h
    by_cases hc : m.rows = min m.rows shape.1 - 0 ∧ m.cols = min m.cols shape.2 - 0
    · rw [if_pos hc] at h
      injection h with h
      subst h
      refine ⟨rfl, rfl, by dsimp only; omega, by dsimp only; omega, fun i j hi hj => ?_⟩
      dsimp only
      by_cases hin : i < m.rows ∧ j < m.cols
      · rw [if_pos (by omega), if_pos hin]; rfl
      · rw [if_neg (by omega), if_neg hin]
    · rw [if_neg hc] at h; cases h

theorem interpolate_ok {xe : Xesmf F W} {r : Kind → Regridder W} {kd : Kind} {v : Vol F} {d : Nat} {M : Mat F}
    (h : interpolate xe r kd v d = .ok M) : Spec.Interpolated xe (r kd) kd v d M := by
  unfold interpolate at h
  obtain ⟨m, hm, h⟩ := bind_ok_inv h
  obtain ⟨m', hm', h⟩ := bind_ok_inv h
  have hdep : (∀ n, v.depths = some n → d < n) ∧ m.rows = v.rows ∧ m.cols = v.cols ∧
      ∀ i j, m.get i j = v.get i j (if v.depths.isSome then d else 0) := by
    unfold atDepth at hm
    cases hv : v.depths with
    | none =>
      rw [hv] at hm; injection hm with hm; subst hm
      exact ⟨fun n h => (by cases h), rfl, rfl, fun _ _ => rfl⟩
    | some n =>
      rw [hv] at hm
      dsimp only at hm
      by_cases hd : d < n
      · rw [if_pos hd] at hm; injection hm with hm; subst hm
        exact ⟨fun n' h => (by cases h; exact hd), rfl, rfl, fun _ _ => rfl⟩
      · rw [if_neg hd] at hm; cases hm
  obtain ⟨h1, h2, h3, h4⟩ := hdep
  have velocity : kd ≠ .tracer → padTo (r kd).shapeIn m = .ok m' → Spec.Interpolated xe (r kd) kd v d M := by
    intro hne hp
    obtain ⟨p1, p2, p3, p4, p5⟩ := padTo_ok hp
    refine ⟨h1, m', ?_, fun i j hi hj => ?_, h⟩
    · rw [if_neg hne]; rw [h2] at p3; rw [h3] at p4; exact ⟨p1, p2, p3, p4⟩
    · rw [p5 i j hi hj, h2, h3, h4]
  cases kd with
  | tracer =>
    injection hm' with e
    subst e
    refine ⟨h1, m, ?_, fun i j hi hj => ?_, h⟩
    · rw [if_pos (rfl : Kind.tracer = Kind.tracer)]; exact ⟨h2, h3⟩
    · rw [h4, if_pos (show i < v.rows ∧ j < v.cols from ⟨by omega, by omega⟩)]
  | u => exact velocity (by decide) hm'
  | v => exact velocity (by decide) hm'

theorem natTruthy_given {x : Option Nat} {n : Nat} (hx : natTruthy x = some n) : x = some n := by
  unfold natTruthy at hx
  cases x with
  | none => cases hx
  | some y =>
    dsimp only at hx
    by_cases e : y = 0
    · rw [if_pos e] at hx; cases hx
    · rw [if_neg e] at hx; exact hx

theorem fileOrMatrices_ok [F64 F] {fs : Files F} {strict : Bool} {file : Option String} {ni nj : Option Nat}
    {matrices : Option (MatDict F)} {g : ObGrid F × Nat × Nat} (h : fileOrMatrices fs strict file ni nj matrices = some (.ok g))
    {x y : NArr F} (hx : g.1.xg = .ok x) (hy : g.1.yg = .ok y) :
    Spec.GivenGrid fs strict file ni nj matrices ⟨x, y, g.1.rest⟩ g.2.1 g.2.2 := by
  unfold fileOrMatrices at h
  cases hf : strTruthy file with
  | some f =>
    rw [hf] at h
    have hne : file = some f ∧ f ≠ "" := by
      unfold strTruthy at hf
      cases hr : file with
      | none => rw [hr] at hf; cases hf
      | some f' =>
        rw [hr] at hf
        dsimp only at hf
        by_cases e : f' = ""
        · rw [if_pos e] at hf; cases hf
        · rw [if_neg e] at hf; injection hf with hf; subst hf; exact ⟨rfl, e⟩
    cases hi : natTruthy ni with
    | none => rw [hi] at h; cases h
    | some n =>
      cases hj : natTruthy nj with
      | none => rw [hi, hj] at h; cases h
      | some m =>
        rw [hi, hj] at h
        injection h with h
        obtain ⟨b, hb, h⟩ := bind_ok_inv h
        obtain ⟨gg, hg, h⟩ := bind_ok_inv h
        cases h
        have arr : ∀ fl (z : NArr F), (gg.arr fl).map NArr.ofF = .ok z → ∃ mm, gg fl = .arr mm ∧ z = .ofF mm := by
          intro fl z hz
          unfold Grid.arr at hz
          cases hv : gg fl with
          | absent => rw [hv] at hz; cases hz
          | none_ => rw [hv] at hz; cases hz
          | arr mm => rw [hv] at hz; cases hz; exact ⟨mm, rfl, rfl⟩
        obtain ⟨mx, h1, rfl⟩ := arr .XG x hx
        obtain ⟨my, h2, rfl⟩ := arr .YG y hy
        exact .inl ⟨f, hne.1, hne.2, b, gg, mx, my, hb, natTruthy_given hi, natTruthy_given hj, hg, h1, h2, rfl⟩
  | none =>
    rw [hf] at h
    have hno : file = none ∨ file = some "" := by
      unfold strTruthy at hf
      cases hr : file with
      | none => exact .inl rfl
      | some f' =>
        rw [hr] at hf
        dsimp only at hf
        by_cases e : f' = ""
        · subst e; exact .inr rfl
        · rw [if_neg e] at hf; cases hf
    cases hm : matrices with
    | none => rw [hm] at h; cases h
    | some d =>
      rw [hm] at h
      injection h with h
      obtain ⟨xc, hxc, h⟩ := bind_ok_inv h
      cases h
      cases hx; cases hy
      refine .inr ⟨hno, rfl, xc, ?_, rfl, rfl⟩
      unfold Grid.shaped at hxc
      cases hx : d.rest .XC with
      | absent => rw [hx] at hxc; cases hxc
      | none_ => rw [hx] at hxc; cases hxc
      | arr m => rw [hx] at hxc; cases hxc; rfl

/-- An accepted argument: all boundaries are computed, and the index vector. -/
theorem obVector_ok {s : Side} {ni nj : Nat} {x : ObArg} {v : List Int × Bool} (h : obVector s ni nj x = .ok v) :
    (obZeroBased s ni nj v).2 = true ∧
    (((obZeroBased s ni nj v).1 = List.replicate (s.len ni nj) (Spec.obIndex s ni nj x) ∧ ∀ p, Spec.obPos x p = p) ∨
     ((obZeroBased s ni nj v).1 = [Spec.obIndex s ni nj x] ∧ ∀ p, Spec.obPos x p = 0)) := by
  have dflt : obZeroBased s ni nj (obDefault s ni nj, true) =
      (List.replicate (s.len ni nj) (Spec.obIndex.edge s ni nj), true) := by
    cases s <;> simp [obZeroBased, obDefault, Side.len, Spec.obIndex.edge] <;> omega
  have cdef : ∀ x, (Spec.obIndex s ni nj x = Spec.obIndex.edge s ni nj) → (∀ p, Spec.obPos x p = p) →
      v = (obDefault s ni nj, true) → (obZeroBased s ni nj v).2 = true ∧
    (((obZeroBased s ni nj v).1 = List.replicate (s.len ni nj) (Spec.obIndex s ni nj x) ∧ ∀ p, Spec.obPos x p = p) ∨
     ((obZeroBased s ni nj v).1 = [Spec.obIndex s ni nj x] ∧ ∀ p, Spec.obPos x p = 0)) := by
    intro x h1 h2 hv
    subst hv
    rw [dflt, h1]
    exact ⟨rfl, Or.inl ⟨rfl, h2⟩⟩
  match x, h with
  | .missing, h => cases h; exact cdef _ rfl (fun _ => rfl) rfl
  | .scalar z, h =>
    simp only [obVector] at h
    by_cases hz : z = 0
    · rw [if_pos hz] at h; cases h; exact cdef _ rfl (fun _ => rfl) rfl
    · rw [if_neg hz] at h; cases h
  | .vec [], h => cases h; exact cdef _ rfl (fun _ => rfl) rfl
  | .vec [z], h =>
    simp only [obVector] at h
    by_cases hz : z = 0
    · rw [if_pos hz] at h; cases h
      exact cdef _ (if_pos hz) (fun p => if_pos hz) rfl
    · rw [if_neg hz] at h; cases h
      refine ⟨?_, Or.inr ⟨?_, fun p => if_neg hz⟩⟩
      · cases s <;> simp [obZeroBased, hz]
      · cases s <;> simp [obZeroBased, hz, Spec.obIndex] <;> split <;> omega
  | .vec (_ :: _ :: _), h => cases h

theorem partitionOf_length (s : Side) (kd : Kind) (ob : List Int) : (partitionOf s kd ob).length = ob.length := by
  cases s <;> cases kd <;> simp [partitionOf]

theorem partitionOf_get {s : Side} {kd : Kind} {ob : List Int} {q : Nat} {ij : Int × Int} {x : Int}
    (hx : ob[q]? = some x) (h : (partitionOf s kd ob)[q]? = some ij) : ij = Spec.obCell s kd x q := by
  have hq : q < ob.length := by
    rcases Nat.lt_or_ge q ob.length with h | h
    · exact h
    · rw [List.getElem?_eq_none h] at hx; cases hx
  rw [List.getElem?_eq_getElem hq] at hx
  injection hx with hx
  have h' := h
  rw [List.getElem?_eq_getElem (by rw [partitionOf_length]; exact hq)] at h'
  injection h' with h'
  rw [← h', ← hx]
  cases s <;> cases kd <;> simp [partitionOf, Spec.obCell]

theorem obVectors_ok {ob : Side → ObArg} {ni nj : Nat} {obs : Side → List Int × Bool} (h : obVectors ob ni nj = .ok obs)
    (s : Side) : ∃ v, obVector s ni nj (ob s) = .ok v ∧ obs s = obZeroBased s ni nj v := by
  unfold obVectors at h
  obtain ⟨n, hn, h⟩ := bind_ok_inv h
  obtain ⟨s', hs, h⟩ := bind_ok_inv h
  obtain ⟨e, he, h⟩ := bind_ok_inv h
  obtain ⟨w, hw, h⟩ := bind_ok_inv h
  cases h
  cases s
  · exact ⟨n, hn, rfl⟩
  · exact ⟨s', hs, rfl⟩
  · exact ⟨e, he, rfl⟩
  · exact ⟨w, hw, rfl⟩

/-- A line of a boundary array in terms of the argument. -/
theorem lineOK_spec {M : Mat F} {ob : Side → ObArg} {obs : Side → List Int × Bool} {ni nj : Nat} {kd : Kind} {d t : Nat}
    {arrs : Side → Arr3 F} {s : Side} (ho : obVectors ob ni nj = .ok obs)
    (h : LineOK M obs kd (fun s => s.len ni nj) d t arrs s) (p : Nat) (hp : p < s.len ni nj) :
    M.atI (Spec.obCell s kd (Spec.obIndex s ni nj (ob s)) (Spec.obPos (ob s) p)).1
      (Spec.obCell s kd (Spec.obIndex s ni nj (ob s)) (Spec.obPos (ob s) p)).2 = .ok ((arrs s).get p d t) := by
  obtain ⟨v, hv, hobs⟩ := obVectors_ok ho s
  obtain ⟨hdo, hvec⟩ := obVector_ok hv
  rw [← hobs] at hdo hvec
  obtain ⟨ij, h1, h2⟩ := h hdo p hp
  rw [partitionOf_length] at h1
  rcases hvec with ⟨hl, hpos⟩ | ⟨hl, hpos⟩
  · rw [hpos]
    rw [hl] at h1
    rw [if_pos (List.length_replicate ..)] at h1
    rw [← partitionOf_get (by rw [List.getElem?_replicate, if_pos hp]) h1]
    exact h2
  · rw [hpos]
    rw [hl] at h1
    have hq : (if [Spec.obIndex s ni nj (ob s)].length = s.len ni nj then p else 0) = 0 := by
      simp only [List.length_cons, List.length_nil]
      split <;> omega
    dsimp only at h1
    rw [hq] at h1
    rw [← partitionOf_get (by rfl) h1]
    exact h2

/-! ### time steps -/

theorem insertSorted_perm (n : Nat) (l : List Nat) : (insertSorted n l).Perm (n :: l) := by
  induction l with
  | nil => exact List.Perm.refl _
  | cons m l ih =>
    unfold insertSorted
    split
    · exact List.Perm.refl _
    · exact (List.Perm.cons m ih).trans (List.Perm.swap n m l)

theorem pySorted_perm (l : List Nat) : (pySorted l).Perm l := by
  induction l with
  | nil => exact List.Perm.refl _
  | cons a l ih => exact (insertSorted_perm a (pySorted l)).trans (List.Perm.cons a ih)

theorem insertSorted_sorted (n : Nat) (l : List Nat) (h : l.Pairwise (· ≤ ·)) : (insertSorted n l).Pairwise (· ≤ ·) := by
  induction l with
  | nil => simp [insertSorted]
  | cons m l ih =>
    unfold insertSorted
    obtain ⟨h1, h2⟩ := List.pairwise_cons.1 h
    split
    · rename_i hle
      refine List.pairwise_cons.2 ⟨fun x hx => ?_, h⟩
      rcases List.mem_cons.1 hx with rfl | hx
      · exact hle
      · exact Nat.le_trans hle (h1 x hx)
    · refine List.pairwise_cons.2 ⟨fun x hx => ?_, ih h2⟩
      rcases List.mem_cons.1 ((insertSorted_perm n l).mem_iff.1 hx) with rfl | hx
      · omega
      · exact h1 x hx

theorem pySorted_sorted (l : List Nat) : (pySorted l).Pairwise (· ≤ ·) := by
  induction l with
  | nil => exact List.Pairwise.nil
  | cons a l ih => exact insertSorted_sorted a _ ih

theorem textVal_zeros (n : Nat) (ds : Text) : textVal (List.replicate n '0' ++ ds) = textVal ds := by
  induction n with
  | zero => rfl
  | succ n ih => rw [List.replicate_succ, List.cons_append]; exact ih

theorem firstNumber_resultName (t : Nat) (tile : Text) (ht : ∀ c ∈ tile.head?, c.isDigit = false) :
    firstNumber (Spec.resultName Resp.T.name t tile) = .ok t := by
  unfold firstNumber Spec.resultName
  have hd : ∀ c ∈ List.replicate (10 - (natText t).length) '0' ++ natText t, c.isDigit = true := by
    intro c hc
    rcases List.mem_append.1 hc with h | h
    · rw [(List.mem_replicate.1 h).2]; decide
    · exact natText_digit t c h
  have hne : List.replicate (10 - (natText t).length) '0' ++ natText t ≠ [] := by
    simp [natText_ne_nil]
  have hval : textVal (List.replicate (10 - (natText t).length) '0' ++ natText t) = t := by
    rw [textVal_zeros, textVal_natText]
  generalize List.replicate (10 - (natText t).length) '0' ++ natText t = ds at hd hne hval
  have e1 : (Resp.T.name ++ '.' :: ds ++ tile ++ ['.', 'd', 'a', 't', 'a']).dropWhile (fun c => !c.isDigit) =
      ds ++ (tile ++ ['.', 'd', 'a', 't', 'a']) := by
    show List.dropWhile _ ('T' :: '.' :: (ds ++ tile ++ ['.', 'd', 'a', 't', 'a'])) = _
    rw [List.dropWhile_cons_of_pos (by decide), List.dropWhile_cons_of_pos (by decide), List.append_assoc]
    cases ds with
    | nil => exact absurd rfl hne
    | cons c ds => rw [List.cons_append, List.dropWhile_cons_of_neg (by rw [hd c (by simp)]; decide)]
  have e2 : (ds ++ (tile ++ ['.', 'd', 'a', 't', 'a'])).takeWhile Char.isDigit = ds := by
    rw [List.takeWhile_append_of_pos hd]
    have : (tile ++ ['.', 'd', 'a', 't', 'a']).takeWhile Char.isDigit = [] := by
      cases tile with
      | nil => decide
      | cons c tl => rw [List.cons_append, List.takeWhile_cons_of_neg (by rw [ht c (by simp)]; decide)]
    rw [this, List.append_nil]
  rw [e1, e2]
  cases ds with
  | nil => exact absurd rfl hne
  | cons c ds => rw [← hval]

theorem isResult_resultName (resp : Text) (t : Nat) (tile : Text) : isResult resp (Spec.resultName resp t tile) = true := by
  unfold isResult Spec.resultName
  rw [Bool.and_eq_true]
  constructor
  · rw [List.isPrefixOf_iff_prefix]
    exact ⟨_, by simp only [List.append_assoc, List.cons_append, List.nil_append]; rfl⟩
  · rw [List.isSuffixOf_iff_suffix]
    generalize List.replicate (10 - (natText t).length) '0' ++ natText t = ds
    have : (resp ++ '.' :: ds ++ tile ++ ['.', 'd', 'a', 't', 'a']).drop (resp.length + 1) =
        (ds ++ tile) ++ ['.', 'd', 'a', 't', 'a'] := by
      have : resp ++ '.' :: ds ++ tile ++ ['.', 'd', 'a', 't', 'a'] =
          (resp ++ ['.']) ++ (ds ++ tile ++ ['.', 'd', 'a', 't', 'a']) := by simp
      rw [this, List.drop_left' (by simp)]
    rw [this]
    exact ⟨_, rfl⟩

theorem resultTimes_spec (run : RunDir F) (files : List (Nat × Text)) (ht : ∀ x ∈ files, ∀ c ∈ x.2.head?, c.isDigit = false)
    (h : run.names.filter (isResult Resp.T.name) = files.map fun x => Spec.resultName Resp.T.name x.1 x.2) :
    resultTimes run = .ok (pySorted (files.map (·.1))) := by
  unfold resultTimes
  rw [h]
  have : ∀ (l : List (Nat × Text)), (∀ x ∈ l, ∀ c ∈ x.2.head?, c.isDigit = false) →
      (l.map fun x => Spec.resultName Resp.T.name x.1 x.2).mapM firstNumber = .ok (l.map (·.1)) := by
    intro l hl
    induction l with
    | nil => rfl
    | cons x l ih =>
      rw [List.map_cons, List.mapM_cons, firstNumber_resultName x.1 x.2 (hl x (by simp))]
      rw [ih (fun y hy => hl y (by simp [hy]))]
      rfl
  rw [this files ht]
  rfl

end SG
