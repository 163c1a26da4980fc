import Verif.Props.ObcsOutput
/-! # C139: `getobcs` called again

Earlier calls with the same grids leave weight files in the results directory; these are the weights a later call would compute itself. -/

set_option linter.unusedSectionVars false
namespace SG
variable {F W : Type} [PyFloat F]

/-! ## Two disks, the second with more weight files -/

/-- The second disk has the weight files of the first and possibly more, of which `B` holds. -/
def Later (B : Text → W → Prop) (k k₁ : Disk W) : Prop :=
  ∀ n, k₁.weights n = k.weights n ∨ (k.weights n = none ∧ ∃ w, k₁.weights n = some w ∧ B n w)

theorem Later.refl (B : Text → W → Prop) (k : Disk W) : Later B k k := fun _ => .inl rfl

theorem Later.trans {B : Text → W → Prop} {k k₁ k₂ : Disk W} (h : Later B k k₁) (h' : Later B k₁ k₂) : Later B k k₂ := by
  intro n
  rcases h' n with e | ⟨e, w, e', hw⟩
  · rcases h n with f | ⟨f, w, f', hw⟩
    · exact .inl (e.trans f)
    · exact .inr ⟨f, w, e.trans f', hw⟩
  · rcases h n with f | ⟨f, w', f', hw'⟩
    · exact .inr ⟨f ▸ e, w, e', hw⟩
    · rw [f'] at e; cases e

/-- The action does the same on both disks and keeps the relation. -/
def Twin (B : Text → W → Prop) {α : Type} (m : Act (Disk W) α) : Prop := ∀ k k₁, Later B k k₁ →
  (m k = none ∧ m k₁ = none) ∨ ∃ k' k₁' r, m k = some (k', r) ∧ m k₁ = some (k₁', r) ∧ Later B k' k₁'

/-- The action adds only weight files of which `B` holds and changes no output. -/
def Grows (B : Text → W → Prop) {α : Type} (m : Act (Disk W) α) : Prop := ∀ k k' r, m k = some (k', r) → Later B k k' ∧ k'.out = k.out

/-- The action does not look at the disk. -/
def Free {α : Type} (m : Act (Disk W) α) : Prop := ∃ D : Option (Py α), ∀ k, m k = D.map fun r => (k, r)

theorem Free.twin {B : Text → W → Prop} {α : Type} {m : Act (Disk W) α} (h : Free m) : Twin B m := by
  obtain ⟨D, hD⟩ := h
  intro k k₁ hl
  rw [hD, hD]
  cases D with
  | none => exact .inl ⟨rfl, rfl⟩
  | some r => exact .inr ⟨k, k₁, r, rfl, rfl, hl⟩

theorem Free.grows {B : Text → W → Prop} {α : Type} {m : Act (Disk W) α} (h : Free m) : Grows B m := by
  obtain ⟨D, hD⟩ := h
  intro k k' r hk
  rw [hD] at hk
  cases D with
  | none => cases hk
  | some r => cases hk; exact ⟨Later.refl _ _, rfl⟩

theorem free_lift {α : Type} (x : Py α) : Free (Act.lift x : Act (Disk W) α) := ⟨some x, fun _ => rfl⟩

theorem free_doubled [F64 F] (geod : Geod F) (fs : Files F) (fuel : Nat) (g : ObGrid F) (ni nj : Nat) :
    Free (doubled geod fs fuel g ni nj : Act (Disk W) (Grid F)) := by
  unfold doubled
  generalize (do
    let x ← g.xg
    let lon1 ← x.mat.atI 0 (-1)
    let y ← g.yg
    let lat1 ← y.mat.atI 0 (-1)
    let lon2 ← x.mat.atI (-1) 0
    let lat2 ← y.mat.atI (-1) 0
    return (⟨false, none, none, none, some ⟨x, y, g.rest⟩, some ni, some nj, lon1, lat1, lon2, lat2, 2, 2⟩ : RegridArgs F) : Py (RegridArgs F)) = A
  cases A with
  | error e => exact ⟨some (.error e), fun _ => rfl⟩
  | ok a =>
    cases h : regrid geod fs fuel a with
    | none => exact ⟨none, fun k => by simp only [Act.bind, Act.lift, h]; rfl⟩
    | some x =>
      obtain ⟨d, r⟩ := x
      cases r with
      | error e => exact ⟨some (.error e), fun k => by simp only [Act.bind, Act.lift, h]; rfl⟩
      | ok r => exact ⟨some (.ok r.1), fun k => by simp only [Act.bind, Act.lift, h]; rfl⟩

theorem Twin.bind {B : Text → W → Prop} {α β : Type} {m : Act (Disk W) α} {f : α → Act (Disk W) β} (hm : Twin B m)
    (hf : ∀ k k' a, m k = some (k', .ok a) → Twin B (f a)) : Twin B (Act.bind m f) := by
  intro k k₁ hl
  unfold Act.bind
  rcases hm k k₁ hl with ⟨h, h'⟩ | ⟨k', k₁', r, h, h', hl'⟩
  · rw [h, h']; exact .inl ⟨rfl, rfl⟩
  · rw [h, h']
    cases r with
    | error e => exact .inr ⟨k', k₁', _, rfl, rfl, hl'⟩
    | ok a => exact hf _ _ _ h k' k₁' hl'

theorem Grows.bind {B : Text → W → Prop} {α β : Type} {m : Act (Disk W) α} {f : α → Act (Disk W) β} (hm : Grows B m)
    (hf : ∀ k k' a, m k = some (k', .ok a) → Grows B (f a)) : Grows B (Act.bind m f) := by
  intro k k' r h
  unfold Act.bind at h
  cases h1 : m k with
  | none => rw [h1] at h; cases h
  | some x =>
    obtain ⟨k1, r1⟩ := x
    rw [h1] at h
    obtain ⟨l1, o1⟩ := hm _ _ _ h1
    cases r1 with
    | error e => cases h; exact ⟨l1, o1⟩
    | ok a =>
      obtain ⟨l2, o2⟩ := hf _ _ _ h1 _ _ _ h
      exact ⟨l1.trans l2, o2.trans o1⟩

theorem bind_assoc_act {σ α β γ : Type} (m : Act σ α) (f : α → Act σ β) (g : β → Act σ γ) :
    Act.bind (Act.bind m f) g = Act.bind m fun a => Act.bind (f a) g := by
  funext s
  unfold Act.bind
  cases m s with
  | none => rfl
  | some x =>
    obtain ⟨s', r⟩ := x
    cases r <;> rfl

/-! ## The interpolators -/

/-- The points between which the call interpolates. -/
def Ends [F64 F] (W : Type) (geod : Geod F) (fs : Files F) (fuel : Nat) (p g : ObGrid F × Nat × Nat) (kd : Kind) (gin gout : Mat F × Mat F) : Prop :=
  match kd with
  | .tracer => cPoints p.1.rest = .ok gin ∧ cPoints g.1.rest = .ok gout
  | .u => ∃ dp dg, (∃ k k' : Disk W, doubled geod fs fuel p.1 p.2.1 p.2.2 k = some (k', .ok dp)) ∧
      (∃ k k' : Disk W, doubled geod fs fuel g.1 g.2.1 g.2.2 k = some (k', .ok dg)) ∧ uPoints dp = .ok gin ∧ uPoints dg = .ok gout
  | .v => ∃ dp dg, (∃ k k' : Disk W, doubled geod fs fuel p.1 p.2.1 p.2.2 k = some (k', .ok dp)) ∧
      (∃ k k' : Disk W, doubled geod fs fuel g.1 g.2.1 g.2.2 k = some (k', .ok dg)) ∧ vPoints dp = .ok gin ∧ vPoints dg = .ok gout

theorem Ends.unique [F64 F] {geod : Geod F} {fs : Files F} {fuel : Nat} {p g : ObGrid F × Nat × Nat} {kd : Kind} {gin gout gin' gout' : Mat F × Mat F}
    (h : Ends W geod fs fuel p g kd gin gout) (h' : Ends W geod fs fuel p g kd gin' gout') : gin = gin' ∧ gout = gout' := by
  have fun1 : ∀ (q : ObGrid F × Nat × Nat) (d d' : Grid F), (∃ k k' : Disk W, doubled geod fs fuel q.1 q.2.1 q.2.2 k = some (k', .ok d)) →
      (∃ k k' : Disk W, doubled geod fs fuel q.1 q.2.1 q.2.2 k = some (k', .ok d')) → d = d' := by
    rintro q d d' ⟨k, k', h⟩ ⟨k2, k2', h'⟩
    have := (doubled_ok h).2.1 W k2
    rw [h'] at this
    cases this; rfl
  cases kd with
  | tracer =>
    obtain ⟨h1, h2⟩ := h
    obtain ⟨h3, h4⟩ := h'
    rw [h1] at h3; rw [h2] at h4
    cases h3; cases h4; exact ⟨rfl, rfl⟩
  | u =>
    obtain ⟨dp, dg, a1, a2, a3, a4⟩ := h
    obtain ⟨dp', dg', b1, b2, b3, b4⟩ := h'
    cases fun1 _ _ _ a1 b1
    cases fun1 _ _ _ a2 b2
    rw [a3] at b3; rw [a4] at b4
    cases b3; cases b4; exact ⟨rfl, rfl⟩
  | v =>
    obtain ⟨dp, dg, a1, a2, a3, a4⟩ := h
    obtain ⟨dp', dg', b1, b2, b3, b4⟩ := h'
    cases fun1 _ _ _ a1 b1
    cases fun1 _ _ _ a2 b2
    rw [a3] at b3; rw [a4] at b4
    cases b3; cases b4; exact ⟨rfl, rfl⟩

/-- Weights the call computes itself, under the name it gives them. -/
def Own [F64 F] (geod : Geod F) (fs : Files F) (fuel : Nat) (xe : Xesmf F W) (dir : Text) (p g : ObGrid F × Nat × Nat) (n : Text) (w : W) : Prop :=
  ∃ kd gin gout, Ends W geod fs fuel p g kd gin gout ∧ n = Spec.weightPath dir (gin.1.rows, gin.1.cols) (gout.1.rows, gout.1.cols) kd ∧ xe.build gin gout = .ok w

theorem own_iff [F64 F] {geod : Geod F} {fs : Files F} {fuel : Nat} {xe : Xesmf F W} {dir : Text} {p g : ObGrid F × Nat × Nat} {kd : Kind} {gin gout : Mat F × Mat F}
    (h : Ends W geod fs fuel p g kd gin gout) (w : W) :
    Own geod fs fuel xe dir p g (Spec.weightPath dir (gin.1.rows, gin.1.cols) (gout.1.rows, gout.1.cols) kd) w ↔ xe.build gin gout = .ok w := by
  constructor
  · rintro ⟨kd', gin', gout', h', e, hb⟩
    obtain ⟨-, -, rfl⟩ := weightPath_kind e
    obtain ⟨rfl, rfl⟩ := h.unique h'
    exact hb
  · exact fun hb => ⟨kd, gin, gout, h, rfl, hb⟩

theorem open_twin [F64 F] {geod : Geod F} {fs : Files F} {fuel : Nat} {xe : Xesmf F W} {dir : Text} {p g : ObGrid F × Nat × Nat} {kd : Kind} {gin gout : Mat F × Mat F}
    (h : Ends W geod fs fuel p g kd gin gout) :
    Twin (Own geod fs fuel xe dir p g) (openRegridder xe dir gin gout (Spec.kindText kd)) ∧
    Grows (Own geod fs fuel xe dir p g) (openRegridder xe dir gin gout (Spec.kindText kd)) := by
  have e0 := weightPath_eq dir (gin.1.rows, gin.1.cols) (gout.1.rows, gout.1.cols) kd
  have iff := own_iff (xe := xe) (dir := dir) h
  refine ⟨fun k k₁ hl => ?_, fun k k' r hk => ?_⟩
  · unfold openRegridder
    dsimp only
    rw [e0]
    generalize Spec.weightPath dir (gin.1.rows, gin.1.cols) (gout.1.rows, gout.1.cols) kd = name at iff
    rcases hl name with e | ⟨e, w, e', hw⟩
    · rw [e]
      cases hk : k.weights name with
      | some w => exact .inr ⟨k, k₁, _, rfl, rfl, hl⟩
      | none =>
        cases hb : xe.build gin gout with
        | error e => exact .inr ⟨k, k₁, _, rfl, rfl, hl⟩
        | ok w =>
          refine .inr ⟨_, _, _, rfl, rfl, fun n => ?_⟩
          dsimp only
          by_cases hn : n = name
          · rw [if_pos hn, if_pos hn]; exact .inl rfl
          · rw [if_neg hn, if_neg hn]; exact hl n
    · rw [e, e', (iff w).1 hw]
      refine .inr ⟨_, _, _, rfl, rfl, fun n => ?_⟩
      dsimp only
      by_cases hn : n = name
      · rw [if_pos hn, hn]; exact .inl e'
      · rw [if_neg hn]; exact hl n
  · unfold openRegridder at hk
    dsimp only at hk
    rw [e0] at hk
    generalize Spec.weightPath dir (gin.1.rows, gin.1.cols) (gout.1.rows, gout.1.cols) kd = name at iff hk
    cases hw : k.weights name with
    | some w => rw [hw] at hk; cases hk; exact ⟨Later.refl _ _, rfl⟩
    | none =>
      rw [hw] at hk
      cases hb : xe.build gin gout with
      | error e => rw [hb] at hk; cases hk; exact ⟨Later.refl _ _, rfl⟩
      | ok w =>
        rw [hb] at hk
        cases hk
        refine ⟨fun n => ?_, rfl⟩
        dsimp only
        by_cases hn : n = name
        · rw [if_pos hn, hn]; exact .inr ⟨hw, w, rfl, (iff w).2 hb⟩
        · rw [if_neg hn]; exact .inl rfl

theorem regridders_twin [F64 F] (geod : Geod F) (fs : Files F) (fuel : Nat) (xe : Xesmf F W) (dir : Text) (p g : ObGrid F × Nat × Nat) :
    Twin (Own geod fs fuel xe dir p g) (regridders geod fs fuel xe dir p g) ∧ Grows (Own geod fs fuel xe dir p g) (regridders geod fs fuel xe dir p g) := by
  have both : ∀ {α β : Type} {m : Act (Disk W) α} {f : α → Act (Disk W) β},
      (Twin (Own geod fs fuel xe dir p g) m ∧ Grows (Own geod fs fuel xe dir p g) m) →
      (∀ k k' a, m k = some (k', .ok a) → Twin (Own geod fs fuel xe dir p g) (f a) ∧ Grows (Own geod fs fuel xe dir p g) (f a)) →
      Twin (Own geod fs fuel xe dir p g) (Act.bind m f) ∧ Grows (Own geod fs fuel xe dir p g) (Act.bind m f) :=
    fun hm hf => ⟨hm.1.bind fun k k' a h => (hf k k' a h).1, hm.2.bind fun k k' a h => (hf k k' a h).2⟩
  have lft : ∀ {α : Type} (x : Py α), Twin (Own geod fs fuel xe dir p g) (Act.lift x : Act (Disk W) α) ∧ Grows (Own geod fs fuel xe dir p g) (Act.lift x : Act (Disk W) α) :=
    fun x => ⟨(free_lift x).twin, (free_lift x).grows⟩
  have dbl : ∀ q : ObGrid F × Nat × Nat, Twin (Own geod fs fuel xe dir p g) (doubled geod fs fuel q.1 q.2.1 q.2.2 : Act (Disk W) (Grid F)) ∧
      Grows (Own geod fs fuel xe dir p g) (doubled geod fs fuel q.1 q.2.1 q.2.2 : Act (Disk W) (Grid F)) :=
    fun q => ⟨(free_doubled geod fs fuel q.1 q.2.1 q.2.2).twin, (free_doubled geod fs fuel q.1 q.2.1 q.2.2).grows⟩
  unfold regridders
  refine both (lft _) fun _ _ cp h1 => ?_
  refine both (lft _) fun _ _ cg h2 => ?_
  have h1 := (Act.lift_ok_inv h1).2
  have h2 := (Act.lift_ok_inv h2).2
  refine both (open_twin (kd := .tracer) ⟨h1, h2⟩) fun _ _ rt _ => ?_
  refine both (dbl p) fun _ _ dp h3 => ?_
  refine both (dbl g) fun _ _ dg h4 => ?_
  refine both (lft _) fun _ _ up h5 => ?_
  refine both (lft _) fun _ _ ug h6 => ?_
  have h5 := (Act.lift_ok_inv h5).2
  have h6 := (Act.lift_ok_inv h6).2
  refine both (open_twin (kd := .u) ⟨dp, dg, ⟨_, _, h3⟩, ⟨_, _, h4⟩, h5, h6⟩) fun _ _ ru _ => ?_
  refine both (lft _) fun _ _ vp h7 => ?_
  refine both (lft _) fun _ _ vg h8 => ?_
  have h7 := (Act.lift_ok_inv h7).2
  have h8 := (Act.lift_ok_inv h8).2
  refine both (open_twin (kd := .v) ⟨dp, dg, ⟨_, _, h3⟩, ⟨_, _, h4⟩, h7, h8⟩) fun _ _ rv _ => ?_
  exact lft (.ok _)

/-- After the interpolators are there, no more weight files can be added. -/
theorem later_full [F64 F] {geod : Geod F} {fs : Files F} {fuel : Nat} {xe : Xesmf F W} {dir : Text} {p g : ObGrid F × Nat × Nat} {k k' k₁ : Disk W}
    {r : Kind → Regridder W} (h : regridders geod fs fuel xe dir p g k = some (k', .ok r)) (hl : Later (Own geod fs fuel xe dir p g) k' k₁) : k₁.weights = k'.weights := by
  funext n
  rcases hl n with e | ⟨e, w, -, kd, gin, gout, hends, rfl, -⟩
  · exact e
  · exfalso
    obtain ⟨cp, cg, dp, dg, up, ug, vp, vg, ka, kb, hcp, hcg, ht, hdp, hdg, -, -, hup, hug, hu, hvp, hvg, hv⟩ := regridders_inv h
    obtain ⟨-, _, _, _, _, -, -, -, -, hw⟩ := regridders_ok h
    have key := (hw kd).1
    have k0 : Disk W := k
    cases kd with
    | tracer =>
      obtain ⟨rfl, rfl⟩ := hends.unique (kd := .tracer) ⟨hcp, hcg⟩
      obtain ⟨t1, t2, -⟩ := openRegridder_ok ht
      rw [t1, t2, e] at key; cases key
    | u =>
      obtain ⟨rfl, rfl⟩ := hends.unique (kd := .u) ⟨dp, dg, ⟨k0, k0, hdp W k0⟩, ⟨k0, k0, hdg W k0⟩, hup, hug⟩
      obtain ⟨t1, t2, -⟩ := openRegridder_ok hu
      rw [t1, t2, e] at key; cases key
    | v =>
      obtain ⟨rfl, rfl⟩ := hends.unique (kd := .v) ⟨dp, dg, ⟨k0, k0, hdp W k0⟩, ⟨k0, k0, hdg W k0⟩, hvp, hvg⟩
      obtain ⟨t1, t2, -⟩ := openRegridder_ok hv
      rw [t1, t2, e] at key; cases key

/-! ## The rest of the call -/

/-- The action only writes output files, which ones and with what content does not depend on the disk. -/
def Writes {α : Type} (m : Act (Disk W) α) : Prop :=
  ∃ (U : Text → Option (List Byte)) (res : Py α), ∀ k, m k = some ({ k with out := fun n => (U n).or (k.out n) }, res)

theorem writes_lift {α : Type} (x : Py α) : Writes (Act.lift x : Act (Disk W) α) := ⟨fun _ => none, x, fun _ => rfl⟩

theorem Writes.bind {α β : Type} {m : Act (Disk W) α} {f : α → Act (Disk W) β} (hm : Writes m) (hf : ∀ a, Writes (f a)) : Writes (Act.bind m f) := by
  obtain ⟨U, res, hU⟩ := hm
  cases res with
  | error e => exact ⟨U, .error e, fun k => by unfold Act.bind; rw [hU]⟩
  | ok a =>
    obtain ⟨V, res, hV⟩ := hf a
    refine ⟨fun n => (V n).or (U n), res, fun k => ?_⟩
    unfold Act.bind
    rw [hU]
    dsimp only
    rw [hV]
    simp only [Option.or_assoc]

theorem writeObs_writes [F64 F] (dir : Text) (resp : Resp) (obs : Side → List Int × Bool) (arrs : Side → Arr3 F) :
    ∃ U : Text → Option (List Byte), ∀ k : Disk W, writeObs dir resp obs arrs k = { k with out := fun n => (U n).or (k.out n) } := by
  unfold writeObs
  generalize Side.all = l
  induction l with
  | nil => exact ⟨fun _ => none, fun k => rfl⟩
  | cons s t ih =>
    obtain ⟨U, hU⟩ := ih
    refine ⟨fun n => (U n).or (if (obs s).2 then (if n = pathJoin dir (obFileName s resp) then some (arr3Bytes (arrs s)) else none) else none), fun k => ?_⟩
    rw [List.foldl_cons, hU]
    by_cases hd : (obs s).2 = true
    · simp only [hd, if_true, Option.or_assoc]
      congr 1
      funext n
      by_cases hn : n = pathJoin dir (obFileName s resp)
      · simp [hn]
      · simp [hn]
    · simp [hd]

theorem responses_writes [F64 F] (xe : Xesmf F W) (r : Kind → Regridder W) (run : RunDir F) (obs : Side → List Int × Bool)
    (ni nj : Nat) (times : List Nat) (dir : Text) (l : List Resp) : Writes (responses xe r run obs ni nj times dir l) := by
  induction l with
  | nil => exact ⟨fun _ => none, .ok (), fun _ => rfl⟩
  | cons resp t ih =>
    obtain ⟨V, res, hV⟩ := ih
    by_cases hp : run.names.any (isResult resp.name) = true
    · cases ha : assemble xe r run obs ni nj times resp with
      | error e => exact ⟨fun _ => none, .error e, fun k => by unfold responses; rw [if_pos hp, ha]; rfl⟩
      | ok arrs =>
        obtain ⟨U, hU⟩ := writeObs_writes (W := W) dir resp obs arrs
        refine ⟨fun n => (V n).or (U n), res, fun k => ?_⟩
        unfold responses
        rw [if_pos hp, ha]
        dsimp only
        rw [hU, hV]
        simp only [Option.or_assoc]
    · exact ⟨V, res, fun k => by unfold responses; rw [if_neg hp, hV]⟩

/-- What follows the interpolators (getobcs.py:334-483). -/
def afterwards [F64 F] (xe : Xesmf F W) (run : RunDir F) (obs : Side → List Int × Bool) (ni nj : Nat) (dir : Text) (r : Kind → Regridder W) : Act (Disk W) Unit :=
  Act.bind (Act.lift (resultTimes run)) fun times =>
  Act.bind (Act.lift (match times with
    | [] => .error .indexError
    | t :: _ => run.read Resp.T.name t)) fun _ =>
  responses xe r run obs ni nj times dir Resp.all

theorem afterwards_writes [F64 F] (xe : Xesmf F W) (run : RunDir F) (obs : Side → List Int × Bool) (ni nj : Nat) (dir : Text) (r : Kind → Regridder W) :
    Writes (afterwards xe run obs ni nj dir r) :=
  (writes_lift _).bind fun _ => (writes_lift _).bind fun _ => responses_writes ..

theorem afterwards_same [F64 F] {xe : Xesmf F W} {run : RunDir F} {obs : Side → List Int × Bool} {ni nj : Nat} {dir : Text} {r : Kind → Regridder W}
    {k k' k₁ k₁' : Disk W} (h : afterwards xe run obs ni nj dir r k = some (k', .ok ())) (h₁ : afterwards xe run obs ni nj dir r k₁ = some (k₁', .ok ()))
    (hdo : ∀ s, (obs s).2 = true) (resp : Resp) (hp : Spec.Present run.names resp) (s : Side) :
    k₁'.out (Spec.inDir dir (Spec.obName s resp)) = k'.out (Spec.inDir dir (Spec.obName s resp)) := by
  have key : ∀ {k k' : Disk W}, afterwards xe run obs ni nj dir r k = some (k', .ok ()) → ∃ times arrs, resultTimes run = .ok times ∧
      assemble xe r run obs ni nj times resp = .ok arrs ∧ k'.out (Spec.inDir dir (Spec.obName s resp)) = some (arr3Bytes (arrs s)) := by
    intro k k' h
    obtain ⟨k1, times, h1, h2⟩ := Act.bind_ok_inv h
    obtain ⟨-, ht⟩ := Act.lift_ok_inv h1
    obtain ⟨k2, v, h3, h4⟩ := Act.bind_ok_inv h2
    obtain ⟨-, hr, -⟩ := responses_ok Resp.all (by decide) h4
    obtain ⟨arrs, ha, ho⟩ := hr resp (by cases resp <;> decide) ((present_iff _ _).2 hp)
    have ho := ho s (hdo s)
    rw [inDir_eq, obName_eq] at ho
    exact ⟨times, arrs, ht, ha, ho⟩
  obtain ⟨t, A, ht, hA, ho⟩ := key h
  obtain ⟨t', A', ht', hA', ho'⟩ := key h₁
  rw [ht] at ht'; cases ht'
  rw [hA] at hA'; cases hA'
  rw [ho, ho']

/-- The two parts of a call. -/
theorem getobcs_parts [F64 F] (geod : Geod F) (fs : Files F) (fuel : Nat) (xe : Xesmf F W) (runs : Text → RunDir F) (a : ObcsArgs F) :
    (∃ e, ∀ k, getobcs geod fs fuel xe runs a k = some (k, .error e)) ∨
    ∃ pdir p g obs, a.parentResultsdir = some pdir ∧ parentGrid fs (runs pdir) a = .ok p ∧ regionalGrid fs a = .ok g ∧ obVectors a.ob g.2.1 g.2.2 = .ok obs ∧
      getobcs geod fs fuel xe runs a = Act.bind (regridders geod fs fuel xe (resultsDirOf a pdir) p g)
        (afterwards xe (runs pdir) obs g.2.1 g.2.2 (resultsDirOf a pdir)) := by
  cases hd : a.parentResultsdir with
  | none => exact .inl ⟨.valueError, fun k => by unfold getobcs; rw [hd]; rfl⟩
  | some pdir =>
    cases pdir with
    | nil => exact .inl ⟨.valueError, fun k => by unfold getobcs; rw [hd]; rfl⟩
    | cons c d =>
      cases hp : parentGrid fs (runs (c :: d)) a with
      | error e => exact .inl ⟨e, fun k => by unfold getobcs; rw [hd]; dsimp only; rw [hp]; rfl⟩
      | ok p =>
        cases hg : regionalGrid fs a with
        | error e => exact .inl ⟨e, fun k => by unfold getobcs; rw [hd]; dsimp only; rw [hp, hg]; rfl⟩
        | ok g =>
          cases ho : obVectors a.ob g.2.1 g.2.2 with
          | error e => exact .inl ⟨e, fun k => by unfold getobcs; rw [hd]; dsimp only; rw [hp, hg]; unfold Act.bind Act.lift; dsimp only; rw [ho]⟩
          | ok obs =>
            refine .inr ⟨c :: d, p, g, obs, rfl, hp, rfl, ho, ?_⟩
            funext k
            unfold getobcs
            rw [hd]
            dsimp only
            rw [hp, hg]
            rw [Act.bind_of_ok (s := k) (s' := k) rfl, Act.bind_of_ok (s := k) (s' := k) rfl, ho, Act.bind_of_ok (s := k) (s' := k) rfl]
            rfl

/-! ## The history of a results directory -/

/-- The two calls are given the same grids. -/
structure Spec.SameGrids (a b : ObcsArgs F) : Prop where
  strict : b.strict = a.strict
  parentFile : b.parentFile = a.parentFile
  niParent : b.niParent = a.niParent
  njParent : b.njParent = a.njParent
  parentMatrices : b.parentMatrices = a.parentMatrices
  regionalFile : b.regionalFile = a.regionalFile
  niRegional : b.niRegional = a.niRegional
  njRegional : b.njRegional = a.njRegional
  regionalMatrices : b.regionalMatrices = a.regionalMatrices

/-- The parent grid is given, by a file or by matrices (without, no call succeeds: C51). -/
def Spec.ParentGiven (a : ObcsArgs F) : Prop := (∃ f, a.parentFile = some f ∧ f ≠ "") ∨ a.parentMatrices ≠ none

/-- Any number of calls that ended, with or without an error, with the grids of `a` and the results directory `dir`.  The model runs, their
results, and the boundary positions may differ from call to call. -/
inductive Spec.CallsBefore [F64 F] (geod : Geod F) (fs : Files F) (fuel : Nat) (xe : Xesmf F W) (a : ObcsArgs F) (dir : Text) : Disk W → Disk W → Prop
  | none (k) : CallsBefore geod fs fuel xe a dir k k
  | call {k k₁ k₂} (runs : Text → RunDir F) (b : ObcsArgs F) (r : Py Unit) : CallsBefore geod fs fuel xe a dir k k₁ → Spec.SameGrids a b →
      (∀ pdir, b.parentResultsdir = some pdir → Spec.OutDir b pdir dir) → getobcs geod fs fuel xe runs b k₁ = some (k₂, r) →
      CallsBefore geod fs fuel xe a dir k k₂

theorem parent_same [F64 F] {fs : Files F} {a b : ObcsArgs F} (same : Spec.SameGrids a b) (given : Spec.ParentGiven a) (run run' : RunDir F) :
    parentGrid fs run' b = parentGrid fs run a := by
  unfold parentGrid
  rw [same.strict, same.parentFile, same.niParent, same.njParent, same.parentMatrices]
  cases h : fileOrMatrices fs a.strict a.parentFile a.niParent a.njParent a.parentMatrices with
  | some r => rfl
  | none =>
    exfalso
    unfold fileOrMatrices at h
    rcases given with ⟨f, hf, hne⟩ | hm
    · have : strTruthy a.parentFile = some f := by rw [hf]; simp [strTruthy, hne]
      rw [this] at h
      dsimp only at h
      split at h <;> cases h
    · split at h
      · split at h <;> cases h
      · split at h
        · cases h
        · contradiction

theorem regional_same [F64 F] {fs : Files F} {a b : ObcsArgs F} (same : Spec.SameGrids a b) : regionalGrid fs b = regionalGrid fs a := by
  unfold regionalGrid
  rw [same.strict, same.regionalFile, same.niRegional, same.njRegional, same.regionalMatrices]

theorem history_later [F64 F] {geod : Geod F} {fs : Files F} {fuel : Nat} {xe : Xesmf F W} {a : ObcsArgs F} {dir : Text} {k k₁ : Disk W}
    (given : Spec.ParentGiven a) (h : Spec.CallsBefore geod fs fuel xe a dir k k₁) {run : RunDir F} {p g : ObGrid F × Nat × Nat} (hp : parentGrid fs run a = .ok p)
    (hg : regionalGrid fs a = .ok g) : Later (Own geod fs fuel xe dir p g) k k₁ := by
  induction h with
  | none => exact Later.refl _ _
  | @call k₁ k₂ runs b r _ same hout hc ih =>
    refine ih.trans ?_
    rcases getobcs_parts geod fs fuel xe runs b with ⟨e, he⟩ | ⟨pdir, p', g', obs, hpd, hp', hg', -, hsplit⟩
    · rw [he] at hc; cases hc; exact Later.refl _ _
    · rw [parent_same same given run, hp] at hp'; cases hp'
      rw [regional_same same, hg] at hg'; cases hg'
      rw [hsplit, ← outDir_unique (hout _ hpd)] at hc
      unfold Act.bind at hc
      cases hr : regridders geod fs fuel xe dir p g k₁ with
      | none => rw [hr] at hc; cases hc
      | some x =>
        obtain ⟨k3, r3⟩ := x
        rw [hr] at hc
        have hl := ((regridders_twin geod fs fuel xe dir p g).2 _ _ _ hr).1
        cases r3 with
        | error e => cases hc; exact hl
        | ok r3 =>
          obtain ⟨U, res, hU⟩ := afterwards_writes xe (runs pdir) obs g.2.1 g.2.2 dir r3
          dsimp only at hc
          rw [hU] at hc
          cases hc
          exact hl

/-- C139.  The call ends on the disk left by the earlier calls exactly if it ends on the disk before them, and in the same way: with the same
error or without.  Each output file is then the same, or was touched by neither call.  Without an error, all boundary files of all responses with
results are the same, and so are the weight files afterwards. -/
theorem C139_history [F64 F] (geod : Geod F) (fs : Files F) (fuel : Nat) (xe : Xesmf F W) (runs : Text → RunDir F) (a : ObcsArgs F) (k k₁ : Disk W) (pdir dir : Text)
    (hdir : a.parentResultsdir = some pdir) (hod : Spec.OutDir a pdir dir) (given : Spec.ParentGiven a) (before : Spec.CallsBefore geod fs fuel xe a dir k k₁) :
    (getobcs geod fs fuel xe runs a k = none ↔ getobcs geod fs fuel xe runs a k₁ = none) ∧
    ∀ k' r, getobcs geod fs fuel xe runs a k = some (k', r) → ∃ k₁', getobcs geod fs fuel xe runs a k₁ = some (k₁', r) ∧
      (∀ n, k₁'.out n = k'.out n ∨ (k'.out n = k.out n ∧ k₁'.out n = k₁.out n)) ∧
      (r = .ok () → k₁'.weights = k'.weights ∧
        ∀ resp, Spec.Present (runs pdir).names resp → ∀ s, k₁'.out (Spec.inDir dir (Spec.obName s resp)) = k'.out (Spec.inDir dir (Spec.obName s resp))) := by
  rcases getobcs_parts geod fs fuel xe runs a with ⟨e, he⟩ | ⟨pdir', p, g, obs, hpd, hp, hg, ho, hsplit⟩
  · refine ⟨by rw [he, he]; simp, fun k' r h => ⟨k₁, ?_⟩⟩
    rw [he] at h; cases h
    exact ⟨he _, fun n => .inr ⟨rfl, rfl⟩, fun h => by cases h⟩
  · rw [hdir] at hpd; cases hpd
    have hl := history_later given before hp hg
    rw [← outDir_unique hod] at hsplit
    rw [hsplit]
    have hdo : ∀ s, (obs s).2 = true := fun s => by
      obtain ⟨v, hv, e⟩ := obVectors_ok ho s
      rw [e]; exact (obVector_ok hv).1
    obtain ⟨tw, gr⟩ := regridders_twin geod fs fuel xe dir p g
    unfold Act.bind
    rcases tw k k₁ hl with ⟨h, h'⟩ | ⟨k2, k3, r, h, h', hl'⟩
    · rw [h, h']
      exact ⟨Iff.rfl, fun k' r h => by cases h⟩
    · rw [h, h']
      have o2 := (gr _ _ _ h).2
      have o3 := (gr _ _ _ h').2
      cases r with
      | error e =>
        refine ⟨by simp, fun k' r h => ?_⟩
        cases h
        exact ⟨k3, rfl, fun n => .inr ⟨by rw [o2], by rw [o3]⟩, fun h => by cases h⟩
      | ok r =>
        obtain ⟨U, res, hU⟩ := afterwards_writes xe (runs pdir) obs g.2.1 g.2.2 dir r
        dsimp only
        have hw := later_full h hl'
        refine ⟨by rw [hU, hU]; simp, fun k' r' hk => ⟨{ k3 with out := fun n => (U n).or (k3.out n) }, ?_, ?_, ?_⟩⟩
        · rw [hU] at hk ⊢; cases hk; rfl
        · rw [hU] at hk; cases hk
          intro n
          dsimp only
          cases U n with
          | none => exact .inr ⟨by rw [o2]; rfl, by rw [o3]; rfl⟩
          | some b => exact .inl rfl
        · rintro rfl
          have h2 := hk
          rw [hU] at h2
          cases h2
          exact ⟨hw, fun resp hres s => afterwards_same hk (hU k3) hdo resp hres s⟩

/-- C139.  A successful call made once more succeeds and changes nothing. -/
theorem C139_again [F64 F] (geod : Geod F) (fs : Files F) (fuel : Nat) (xe : Xesmf F W) (runs : Text → RunDir F) (a : ObcsArgs F) (k k' : Disk W)
    (h : getobcs geod fs fuel xe runs a k = some (k', .ok ())) : getobcs geod fs fuel xe runs a k' = some (k', .ok ()) := by
  rcases getobcs_parts geod fs fuel xe runs a with ⟨e, he⟩ | ⟨pdir, p, g, obs, -, -, -, -, hsplit⟩
  · rw [he] at h; cases h
  · rw [hsplit] at h ⊢
    obtain ⟨k2, r, hr, ha⟩ := Act.bind_ok_inv h
    obtain ⟨U, res, hU⟩ := afterwards_writes xe (runs pdir) obs g.2.1 g.2.2 (resultsDirOf a pdir) r
    rw [hU] at ha
    cases ha
    obtain ⟨tw, gr⟩ := regridders_twin geod fs fuel xe (resultsDirOf a pdir) p g
    have hl : Later (Own geod fs fuel xe (resultsDirOf a pdir) p g) k { k2 with out := fun n => (U n).or (k2.out n) } := (gr _ _ _ hr).1
    rcases tw _ _ hl with ⟨h1, -⟩ | ⟨k3, k4, r', h1, h2, hl'⟩
    · rw [h1] at hr; cases hr
    · rw [hr] at h1; cases h1
      have hw := later_full hr hl'
      have ho := (gr _ _ _ h2).2
      rw [Act.bind_of_ok h2, hU]
      obtain ⟨w4, out4⟩ := k4
      cases hw; cases ho
      simp only [← Option.or_assoc, Option.or_self]

/-! ## Cases -/

/-- A call for another model run, with results of one step only, and one for the boundaries W and E at index 1. -/
theorem exEarlier_ok : ∃ k₁ k₂, exCall 1 (fun _ => .missing) ["T.0000000005.data"] exDisk = some (k₁, .ok ()) ∧
    (k₁.weights (Spec.weightPath "run_obcs".toList (2, 1) (2, 1) .tracer)).isSome = true ∧
    exCall 1 (fun s => if s = .N ∨ s = .S then .missing else .vec [1]) exNames k₁ = some (k₂, .ok ()) ∧
    k₂.out "run_obcs/OBWt".toList ≠ k₁.out "run_obcs/OBWt".toList := by
  have h : (match exCall 1 (fun _ => .missing) ["T.0000000005.data"] exDisk with
    | some (k₁, .ok ()) => (k₁.weights (Spec.weightPath "run_obcs".toList (2, 1) (2, 1) .tracer)).isSome &&
      (match exCall 1 (fun s => if s = .N ∨ s = .S then .missing else .vec [1]) exNames k₁ with
      | some (k₂, .ok ()) => decide (k₂.out "run_obcs/OBWt".toList ≠ k₁.out "run_obcs/OBWt".toList)
      | _ => false)
    | _ => false) = true := by decide +kernel
  cases hc : exCall 1 (fun _ => .missing) ["T.0000000005.data"] exDisk with
  | none => rw [hc] at h; cases h
  | some x =>
    obtain ⟨k₁, r⟩ := x
    rw [hc] at h
    cases r with
    | error e => cases h
    | ok u =>
      dsimp only at h
      rw [Bool.and_eq_true] at h
      obtain ⟨h1, h⟩ := h
      cases hc2 : exCall 1 (fun s => if s = .N ∨ s = .S then .missing else .vec [1]) exNames k₁ with
      | none => rw [hc2] at h; cases h
      | some x =>
        obtain ⟨k₂, r⟩ := x
        rw [hc2] at h
        cases r with
        | error e => cases h
        | ok u => exact ⟨k₁, k₂, rfl, h1, hc2, of_decide_eq_true h⟩

/-- C139: after three calls with these grids, of which the last is refused (C52), the directory holds weights, which the call uses; it gives the
files it gives in an empty directory. -/
example : ∃ (k₁ k₃ k' k₁' : Disk Toy), Spec.CallsBefore Toy.geod exNoFiles 10 exXe (exObArgs 1 fun _ => .missing) "run_obcs".toList exDisk k₃ ∧
    (k₁.weights (Spec.weightPath "run_obcs".toList (2, 1) (2, 1) .tracer)).isSome = true ∧
    exCall 1 (fun _ => .missing) exNames exDisk = some (k', .ok ()) ∧ exCall 1 (fun _ => .missing) exNames k₃ = some (k₁', .ok ()) ∧
    k₁'.weights = k'.weights ∧ ∀ s, k₁'.out (Spec.inDir "run_obcs".toList (Spec.obName s .T)) = k'.out (Spec.inDir "run_obcs".toList (Spec.obName s .T)) := by
  obtain ⟨k₁, k₂, h1, hw, h2, -⟩ := exEarlier_ok
  obtain ⟨k', h⟩ := exCall_ok
  obtain ⟨e, h3⟩ : ∃ e, exCall 1 (fun s => if s = .N then .vec [1, 1] else .missing) exNames k₂ = some (k₂, .error e) :=
    C52_vectors_rejected _ _ _ _ _ _ .N [1, 1] (by decide) rfl _
  have hb : Spec.CallsBefore Toy.geod exNoFiles 10 exXe (exObArgs 1 fun _ => .missing) "run_obcs".toList exDisk k₂ := by
    refine .call (exResults exNames) (exObArgs 1 _) _ (.call (exResults ["T.0000000005.data"]) (exObArgs 1 fun _ => .missing) _ (.none _) ?_ ?_ h1) ?_ ?_ h2
    · exact ⟨rfl, rfl, rfl, rfl, rfl, rfl, rfl, rfl, rfl⟩
    · intro p hp; cases hp; exact exOutDir 1 _
    · exact ⟨rfl, rfl, rfl, rfl, rfl, rfl, rfl, rfl, rfl⟩
    · intro p hp; cases hp; exact exOutDir 1 _
  have hb := Spec.CallsBefore.call (exResults exNames) (exObArgs 1 fun s => if s = .N then .vec [1, 1] else .missing) _ hb
    ⟨rfl, rfl, rfl, rfl, rfl, rfl, rfl, rfl, rfl⟩ (by intro p hp; cases hp; exact exOutDir 1 _) h3
  obtain ⟨k₁', g1, -, g2⟩ := (C139_history Toy.geod exNoFiles 10 exXe (exResults exNames) _ _ _ _ _ rfl (exOutDir 1 _) (.inr (by simp [exObArgs])) hb).2 k' _ h
  exact ⟨k₁, _, k', k₁', hb, hw, h, g1, (g2 rfl).1, (g2 rfl).2 .T exPresent⟩

/-- C139: twice in an empty directory. -/
example : ∃ k', exCall 1 (fun _ => .missing) exNames exDisk = some (k', .ok ()) ∧ exCall 1 (fun _ => .missing) exNames k' = some (k', .ok ()) := by
  obtain ⟨k', h⟩ := exCall_ok
  exact ⟨k', h, C139_again _ _ _ _ _ _ _ _ h⟩

end SG
