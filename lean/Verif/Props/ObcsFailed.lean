import Verif.Props.ObcsAgain
/-! # C147: what a call of `getobcs` leaves on disk, whether it succeeds or fails -/

set_option linter.unusedSectionVars false
namespace SG
variable {F W : Type} [PyFloat F]

/-! ## Specification -/

/-- The order in which responses are dealt with. -/
def Spec.respOrder : List Resp := [.T, .S, .Eta, .W, .U, .UICE, .V, .VICE]

/-- The second directory has the grid files of the first and its results of the responses `before`; it has no results of the responses `rest`. -/
structure Spec.ResultsOf (before rest : List Resp) (run run' : RunDir F) : Prop where
  grid : run'.grid = run.grid
  files : ∀ r ∈ before, run'.names.filter (fun n => decide (Spec.IsResult r n)) = run.names.filter (fun n => decide (Spec.IsResult r n))
  read : ∀ r ∈ before, ∀ t, run'.read (Spec.respName r) t = run.read (Spec.respName r) t
  none_ : ∀ r ∈ rest, ¬ Spec.Present run'.names r

/-! ## The interpolators -/

/-- Output files stay; weight files stay, and new ones have names of weight files of the directory. -/
def Adds {α : Type} (dir : Text) (m : Act (Disk W) α) : Prop := ∀ k k' r, m k = some (k', r) →
  k'.out = k.out ∧ (∀ n w, k.weights n = some w → k'.weights n = some w) ∧
  ∀ n, k'.weights n ≠ k.weights n → ∃ si so kd, n = Spec.weightPath dir si so kd

theorem adds_lift {α : Type} (dir : Text) (x : Py α) : Adds dir (Act.lift x : Act (Disk W) α) := by
  intro k k' r h
  unfold Act.lift at h
  cases h
  exact ⟨rfl, fun _ _ h => h, fun _ h => absurd rfl h⟩

theorem Adds.bind {α β : Type} {dir : Text} {m : Act (Disk W) α} {f : α → Act (Disk W) β} (hm : Adds dir m) (hf : ∀ a, Adds dir (f a)) :
    Adds dir (Act.bind m f) := by
  intro k k' r h
  unfold Act.bind at h
  cases hk : m k with
  | none => rw [hk] at h; cases h
  | some x =>
    obtain ⟨k1, r1⟩ := x
    rw [hk] at h
    obtain ⟨a1, a2, a3⟩ := hm _ _ _ hk
    cases r1 with
    | error e => cases h; exact ⟨a1, a2, a3⟩
    | ok a =>
      obtain ⟨b1, b2, b3⟩ := hf a _ _ _ h
      refine ⟨b1.trans a1, fun n w hw => b2 n w (a2 n w hw), fun n hn => ?_⟩
      by_cases e : k1.weights n = k.weights n
      · exact b3 n (e ▸ hn)
      · exact a3 n e

theorem adds_open (xe : Xesmf F W) (dir : Text) (gin gout : Mat F × Mat F) (kd : Kind) : Adds dir (openRegridder xe dir gin gout (Spec.kindText kd)) := by
  intro k k' r h
  unfold openRegridder at h
  dsimp only at h
  split at h
  · cases h
    exact ⟨rfl, fun _ _ h => h, fun _ h => absurd rfl h⟩
  · rename_i hno
    split at h
    · cases h
      exact ⟨rfl, fun _ _ h => h, fun _ h => absurd rfl h⟩
    · cases h
      refine ⟨rfl, fun n w hw => ?_, fun n hn => ?_⟩
      · dsimp only
        split
        · rename_i e
          rw [← e, hw] at hno
          cases hno
        · exact hw
      · dsimp only at hn
        split at hn
        · rename_i e
          exact ⟨_, _, kd, e.trans (weightPath_eq ..)⟩
        · exact absurd rfl hn

theorem adds_doubled [F64 F] (dir : Text) (geod : Geod F) (fs : Files F) (fuel : Nat) (g : ObGrid F) (ni nj : Nat) :
    Adds dir (doubled geod fs fuel g ni nj : Act (Disk W) (Grid F)) := by
  unfold doubled
  refine (adds_lift dir _).bind fun a => ?_
  intro k k' r h
  split at h
  · cases h
  · cases h
    exact ⟨rfl, fun _ _ h => h, fun _ h => absurd rfl h⟩
  · cases h
    exact ⟨rfl, fun _ _ h => h, fun _ h => absurd rfl h⟩

theorem adds_regridders [F64 F] (geod : Geod F) (fs : Files F) (fuel : Nat) (xe : Xesmf F W) (dir : Text) (p g : ObGrid F × Nat × Nat) :
    Adds dir (regridders geod fs fuel xe dir p g) := by
  unfold regridders
  refine (adds_lift dir _).bind fun cp => (adds_lift dir _).bind fun cg => (adds_open xe dir cp cg .tracer).bind fun rt =>
    (adds_doubled dir geod fs fuel p.1 p.2.1 p.2.2).bind fun dp => (adds_doubled dir geod fs fuel g.1 g.2.1 g.2.2).bind fun dg => (adds_lift dir _).bind fun up => (adds_lift dir _).bind fun ug =>
    (adds_open xe dir up ug .u).bind fun ru => (adds_lift dir _).bind fun vp => (adds_lift dir _).bind fun vg =>
    (adds_open xe dir vp vg .v).bind fun rv => ?_
  exact adds_lift dir (.ok _)

/-! ## The loop over responses -/

theorem assemble_read {xe : Xesmf F W} {r : Kind → Regridder W} {run run' : RunDir F} {obs : Side → List Int × Bool} {ni nj : Nat} {times : List Nat} {resp : Resp}
    (h : ∀ t, run'.read (Spec.respName resp) t = run.read (Spec.respName resp) t) :
    assemble xe r run' obs ni nj times resp = assemble xe r run obs ni nj times resp := by
  rw [← respName_eq] at h
  unfold assemble
  simp only [h]

theorem responses_none [F64 F] {xe : Xesmf F W} {r : Kind → Regridder W} {run : RunDir F} {obs : Side → List Int × Bool} {ni nj : Nat} {times : List Nat}
    {dir : Text} (l : List Resp) (h : ∀ x ∈ l, ¬ Spec.Present run.names x) (k : Disk W) : responses xe r run obs ni nj times dir l k = some (k, .ok ()) := by
  induction l with
  | nil => rfl
  | cons a t ih =>
    unfold responses
    rw [if_neg (fun e => h a (List.mem_cons_self ..) ((present_iff _ _).1 e)), ih fun x hx => h x (List.mem_cons_of_mem _ hx)]

theorem present_files {run run' : RunDir F} {r : Resp}
    (h : run'.names.filter (fun n => decide (Spec.IsResult r n)) = run.names.filter (fun n => decide (Spec.IsResult r n))) :
    run'.names.any (isResult r.name) = run.names.any (isResult r.name) := by
  rw [← filter_eq, ← filter_eq] at h
  rw [Bool.eq_iff_iff, List.any_eq_true, List.any_eq_true]
  constructor
  · rintro ⟨n, hn, hr⟩
    have : n ∈ run.names.filter (isResult r.name) := h ▸ List.mem_filter.2 ⟨hn, hr⟩
    exact ⟨n, (List.mem_filter.1 this).1, hr⟩
  · rintro ⟨n, hn, hr⟩
    have : n ∈ run'.names.filter (isResult r.name) := h ▸ List.mem_filter.2 ⟨hn, hr⟩
    exact ⟨n, (List.mem_filter.1 this).1, hr⟩

theorem responses_error [F64 F] {xe : Xesmf F W} {r : Kind → Regridder W} {run : RunDir F} {obs : Side → List Int × Bool} {ni nj : Nat} {times : List Nat}
    {dir : Text} (l : List Resp) {k k' : Disk W} {e : PyErr} (h : responses xe r run obs ni nj times dir l k = some (k', .error e)) :
    ∃ before resp rest, l = before ++ resp :: rest ∧ Spec.Present run.names resp ∧ (before = [] → k' = k) ∧
      ∀ run', Spec.ResultsOf before (resp :: rest) run run' → responses xe r run' obs ni nj times dir l k = some (k', .ok ()) := by
  induction l generalizing k with
  | nil => cases h
  | cons a t ih =>
    unfold responses at h
    by_cases hp : run.names.any (isResult a.name) = true
    · rw [if_pos hp] at h
      cases ha : assemble xe r run obs ni nj times a with
      | error e' =>
        rw [ha] at h
        cases h
        exact ⟨[], a, t, rfl, (present_iff _ _).1 hp, fun _ => rfl, fun run' hr => responses_none _ hr.none_ _⟩
      | ok arrs =>
        rw [ha] at h
        obtain ⟨before, resp, rest, rfl, h1, -, h2⟩ := ih h
        refine ⟨a :: before, resp, rest, rfl, h1, (fun h => by cases h), fun run' hr => ?_⟩
        unfold responses
        rw [present_files (hr.files a (List.mem_cons_self ..)), if_pos hp, assemble_read (hr.read a (List.mem_cons_self ..)), ha]
        exact h2 run' ⟨hr.grid, fun r hm => hr.files r (List.mem_cons_of_mem _ hm), fun r hm => hr.read r (List.mem_cons_of_mem _ hm), hr.none_⟩
    · rw [if_neg hp] at h
      obtain ⟨before, resp, rest, rfl, h1, -, h2⟩ := ih h
      refine ⟨a :: before, resp, rest, rfl, h1, (fun h => by cases h), fun run' hr => ?_⟩
      unfold responses
      rw [present_files (hr.files a (List.mem_cons_self ..)), if_neg hp]
      exact h2 run' ⟨hr.grid, fun r hm => hr.files r (List.mem_cons_of_mem _ hm), fun r hm => hr.read r (List.mem_cons_of_mem _ hm), hr.none_⟩

/-! ## The theorems -/

theorem getobcs_split [F64 F] {geod : Geod F} {fs : Files F} {fuel : Nat} {xe : Xesmf F W} {runs : Text → RunDir F} {a : ObcsArgs F} {pdir : Text}
    {p g : ObGrid F × Nat × Nat} {obs : Side → List Int × Bool} (hd : a.parentResultsdir = some pdir) (hne : pdir ≠ [])
    (hp : parentGrid fs (runs pdir) a = .ok p) (hg : regionalGrid fs a = .ok g) (ho : obVectors a.ob g.2.1 g.2.2 = .ok obs) :
    getobcs geod fs fuel xe runs a = Act.bind (regridders geod fs fuel xe (resultsDirOf a pdir) p g)
      (afterwards xe (runs pdir) obs g.2.1 g.2.2 (resultsDirOf a pdir)) := by
  cases pdir with
  | nil => exact absurd rfl hne
  | cons c d =>
    funext k
    unfold getobcs
    rw [hd]
    dsimp only
    rw [hp, hg]
    rw [Act.bind_of_ok (s := k) (s' := k) rfl, Act.bind_of_ok (s := k) (s' := k) rfl, ho, Act.bind_of_ok (s := k) (s' := k) rfl]
    rfl

theorem parent_grid_same [F64 F] {fs : Files F} {run run' : RunDir F} (a : ObcsArgs F) (h : run'.grid = run.grid) : parentGrid fs run' a = parentGrid fs run a := by
  unfold parentGrid
  rw [h]

theorem times_same {run run' : RunDir F}
    (h : run'.names.filter (fun n => decide (Spec.IsResult .T n)) = run.names.filter (fun n => decide (Spec.IsResult .T n))) : resultTimes run' = resultTimes run := by
  unfold resultTimes
  rw [filter_eq, h, ← filter_eq]

/-- **C147** (failed calls).  A call that fails has written no boundary file, or it has left the disk as a successful call would have, on a
directory with the same results of the responses before the one that failed and no others. -/
theorem C147_failed_call [F64 F] (geod : Geod F) (fs : Files F) (fuel : Nat) (xe : Xesmf F W) (runs : Text → RunDir F) (a : ObcsArgs F) (k k' : Disk W) (e : PyErr)
    (pdir : Text) (hd : a.parentResultsdir = some pdir) (h : getobcs geod fs fuel xe runs a k = some (k', .error e)) :
    k'.out = k.out ∨ ∃ before resp rest, Spec.respOrder = before ++ resp :: rest ∧ Spec.Present (runs pdir).names resp ∧
      ∀ runs', Spec.ResultsOf before (resp :: rest) (runs pdir) (runs' pdir) → getobcs geod fs fuel xe runs' a k = some (k', .ok ()) := by
  by_cases hne : pdir = []
  · subst hne
    left
    unfold getobcs at h
    rw [hd] at h
    cases h
    rfl
  rcases getobcs_parts geod fs fuel xe runs a with ⟨e', he⟩ | ⟨pdir', p, g, obs, hpd, hp, hg, ho, hsplit⟩
  · rw [he] at h
    cases h
    exact .inl rfl
  · rw [hd] at hpd
    cases hpd
    rw [hsplit] at h
    unfold Act.bind at h
    cases hr : regridders geod fs fuel xe (resultsDirOf a pdir) p g k with
    | none => rw [hr] at h; cases h
    | some x =>
      obtain ⟨k1, r1⟩ := x
      rw [hr] at h
      have hout := (adds_regridders geod fs fuel xe _ p g _ _ _ hr).1
      cases r1 with
      | error e' => cases h; exact .inl hout
      | ok r =>
        change afterwards xe (runs pdir) obs g.2.1 g.2.2 (resultsDirOf a pdir) r k1 = _ at h
        unfold afterwards at h
        cases ht : resultTimes (runs pdir) with
        | error e' => rw [ht] at h; cases h; exact .inl hout
        | ok times =>
          rw [ht, Act.bind_of_ok (s := k1) (s' := k1) rfl] at h
          have hfirst : k'.out = k.out ∨ ∃ t l v, times = t :: l ∧ (runs pdir).read Resp.T.name t = .ok v ∧
              responses xe r (runs pdir) obs g.2.1 g.2.2 times (resultsDirOf a pdir) Resp.all k1 = some (k', .error e) := by
            cases times with
            | nil => cases h; exact .inl hout
            | cons t l =>
              change Act.bind (Act.lift ((runs pdir).read Resp.T.name t)) _ k1 = _ at h
              cases hv : (runs pdir).read Resp.T.name t with
              | error e' => rw [hv] at h; cases h; exact .inl hout
              | ok v =>
                rw [hv, Act.bind_of_ok (s := k1) (s' := k1) rfl] at h
                exact .inr ⟨t, l, v, rfl, hv, h⟩
          rcases hfirst with h0 | ⟨t, l, v, rfl, hv, h⟩
          · exact .inl h0
          · skip
            obtain ⟨before, resp, rest, hl, h1, h2, h3⟩ := responses_error Resp.all h
            cases before with
            | nil => rw [h2 rfl]; exact .inl hout
            | cons b before =>
              refine .inr ⟨b :: before, resp, rest, hl, h1, fun runs' hs => ?_⟩
              have hT : b = .T := by
                have := congrArg List.head? hl
                exact (Option.some.inj this).symm
              subst hT
              rw [getobcs_split hd hne ((parent_grid_same a hs.grid).trans hp) hg ho, Act.bind_of_ok hr]
              unfold afterwards
              rw [times_same (hs.files .T (List.mem_cons_self ..)), ht, Act.bind_of_ok (s := k1) (s' := k1) rfl]
              show Act.bind (Act.lift ((runs' pdir).read Resp.T.name t)) _ k1 = _
              rw [show (runs' pdir).read Resp.T.name t = .ok v from (hs.read .T (List.mem_cons_self ..) t).trans hv, Act.bind_of_ok (s := k1) (s' := k1) rfl]
              exact h3 _ hs

/-- **C147** (any call): whatever the outcome, weight files that were there stay as they are, new files are weight files and boundary files of the
results directory, and no other file is written. -/
theorem C147_other_files [F64 F] (geod : Geod F) (fs : Files F) (fuel : Nat) (xe : Xesmf F W) (runs : Text → RunDir F) (a : ObcsArgs F) (k k' : Disk W) (r : Py Unit)
    (pdir dir : Text) (hd : a.parentResultsdir = some pdir) (hdir : Spec.OutDir a pdir dir) (h : getobcs geod fs fuel xe runs a k = some (k', r)) :
    (∀ n w, k.weights n = some w → k'.weights n = some w) ∧
    (∀ n, k'.weights n ≠ k.weights n → ∃ si so kd, n = Spec.weightPath dir si so kd) ∧
    ∀ n, k'.out n ≠ k.out n → ∃ s resp, Spec.Present (runs pdir).names resp ∧ n = Spec.inDir dir (Spec.obName s resp) := by
  rcases getobcs_parts geod fs fuel xe runs a with ⟨e', he⟩ | ⟨pdir', p, g, obs, hpd, hp, hg, ho, hsplit⟩
  · rw [he] at h
    cases h
    exact ⟨fun _ _ h => h, fun _ h => absurd rfl h, fun _ h => absurd rfl h⟩
  · rw [hd] at hpd
    cases hpd
    rw [hsplit, ← outDir_unique hdir] at h
    unfold Act.bind at h
    cases hr : regridders geod fs fuel xe dir p g k with
    | none => rw [hr] at h; cases h
    | some x =>
      obtain ⟨k1, r1⟩ := x
      rw [hr] at h
      obtain ⟨a1, a2, a3⟩ := adds_regridders geod fs fuel xe _ p g _ _ _ hr
      cases r1 with
      | error e' =>
        cases h
        exact ⟨a2, a3, fun n hn => absurd (congrFun a1 n) hn⟩
      | ok rg =>
        change afterwards xe (runs pdir) obs g.2.1 g.2.2 dir rg k1 = _ at h
        have key : k'.weights = k1.weights ∧
            ∀ n, k'.out n ≠ k1.out n → ∃ s resp, Spec.Present (runs pdir).names resp ∧ n = Spec.inDir dir (Spec.obName s resp) := by
          unfold afterwards at h
          cases ht : resultTimes (runs pdir) with
          | error e' => rw [ht] at h; cases h; exact ⟨rfl, fun n hn => absurd rfl hn⟩
          | ok times =>
            rw [ht, Act.bind_of_ok (s := k1) (s' := k1) rfl] at h
            have hfirst : k' = k1 ∨ responses xe rg (runs pdir) obs g.2.1 g.2.2 times dir Resp.all k1 = some (k', r) := by
              cases times with
              | nil => cases h; exact .inl rfl
              | cons t l =>
                change Act.bind (Act.lift ((runs pdir).read Resp.T.name t)) _ k1 = _ at h
                cases hv : (runs pdir).read Resp.T.name t with
                | error e' => rw [hv] at h; cases h; exact .inl rfl
                | ok v =>
                  rw [hv, Act.bind_of_ok (s := k1) (s' := k1) rfl] at h
                  exact .inr h
            clear h
            rcases hfirst with rfl | h
            · exact ⟨rfl, fun n hn => absurd rfl hn⟩
            · clear hr a1 a2 a3 ht
              generalize Resp.all = l at h
              induction l generalizing k1 with
              | nil => cases h; exact ⟨rfl, fun n hn => absurd rfl hn⟩
              | cons b t ih =>
                unfold responses at h
                by_cases hb : (runs pdir).names.any (isResult b.name) = true
                · rw [if_pos hb] at h
                  split at h
                  · cases h; exact ⟨rfl, fun n hn => absurd rfl hn⟩
                  · rename_i arrs _
                    obtain ⟨i1, i2⟩ := ih _ h
                    refine ⟨i1.trans (writeObs_weights ..), fun n hn => ?_⟩
                    by_cases e : (writeObs dir b obs arrs k1).out n = k1.out n
                    · exact i2 n (e ▸ hn)
                    · by_cases hs : ∃ s, n = Spec.inDir dir (Spec.obName s b)
                      · obtain ⟨s, hs⟩ := hs
                        exact ⟨s, b, (present_iff _ _).1 hb, hs⟩
                      · refine absurd ((writeObs_out dir b obs arrs k1).2 n fun s _ hn => hs ⟨s, ?_⟩) e
                        rw [hn, inDir_eq, obName_eq]
                · rw [if_neg hb] at h
                  exact ih _ h
        refine ⟨fun n w hw => ?_, fun n hn => ?_, fun n hn => ?_⟩
        · rw [key.1]; exact a2 n w hw
        · rw [key.1] at hn; exact a3 n hn
        · rw [← a1] at hn; exact key.2 n hn

/-! ## The boundary files of the response that failed, and of those after it -/

theorem isResult_same {r r' : Resp} {n : Text} (h : Spec.IsResult r n) (h' : Spec.IsResult r' n) : r = r' := by
  obtain ⟨m, rfl⟩ := h
  obtain ⟨m', h'⟩ := h'
  have e := congrArg (List.takeWhile fun c => c ≠ '.') h'
  have key : ∀ (r : Resp) (m : Text), List.takeWhile (fun c => c ≠ '.') (Spec.respName r ++ ".".toList ++ m ++ ".data".toList) = Spec.respName r := by
    intro r m
    cases r <;> rfl
  rw [key, key] at e
  revert e
  cases r <;> cases r' <;> decide

theorem resultsOf_some (run : RunDir F) (before rest : List Resp) (h : ∀ r ∈ before, r ∉ rest) :
    ∃ run', Spec.ResultsOf before rest run run' := by
  refine ⟨{ run with names := run.names.filter fun n => ∀ r ∈ rest, ¬ isResult r.name n }, rfl, fun r hr => ?_, fun _ _ _ => rfl, fun r hr hp => ?_⟩
  · rw [← filter_eq, ← filter_eq]
    dsimp only
    rw [List.filter_filter]
    apply List.filter_congr
    intro n _
    rw [Bool.eq_iff_iff, Bool.and_eq_true, decide_eq_true_eq]
    refine ⟨fun h => h.1, fun hn => ⟨hn, fun r' hr' hn' => ?_⟩⟩
    exact h r hr (isResult_same ((isResult_iff _ _).1 hn) ((isResult_iff _ _).1 hn') ▸ hr')
  · obtain ⟨n, hn, hres⟩ := hp
    have hn := (List.mem_filter.1 hn).2
    rw [decide_eq_true_eq] at hn
    exact hn r hr ((isResult_iff _ _).2 hres)

theorem inDir_inj {dir x y : Text} (h : Spec.inDir dir x = Spec.inDir dir y) : x = y := by
  unfold Spec.inDir at h
  split at h
  · exact h
  · split at h
    · exact List.append_cancel_left h
    · exact List.append_cancel_left h

theorem obName_resp {s s' : Side} {r r' : Resp} (h : Spec.obName s r = Spec.obName s' r') : r = r' := by
  have e := congrArg (List.drop 3) h
  have key : ∀ (s : Side) (r : Resp), List.drop 3 (Spec.obName s r) = r.name.map Char.toLower := by
    intro s r
    cases s <;> cases r <;> decide
  rw [key, key] at e
  revert e
  cases r <;> cases r' <;> decide

/-- **C147** (failed calls, files): there is a response, the one that failed, such that its boundary files and those of all later responses are
as before the call; those of the earlier responses are complete, that is as after the successful call of `C147_failed_call`. -/
theorem C147_failed_files [F64 F] (geod : Geod F) (fs : Files F) (fuel : Nat) (xe : Xesmf F W) (runs : Text → RunDir F) (a : ObcsArgs F) (k k' : Disk W) (e : PyErr)
    (pdir dir : Text) (hd : a.parentResultsdir = some pdir) (hdir : Spec.OutDir a pdir dir) (h : getobcs geod fs fuel xe runs a k = some (k', .error e)) :
    k'.out = k.out ∨ ∃ before resp rest runs', Spec.respOrder = before ++ resp :: rest ∧ Spec.ResultsOf before (resp :: rest) (runs pdir) (runs' pdir) ∧
      getobcs geod fs fuel xe runs' a k = some (k', .ok ()) ∧
      ∀ r ∈ resp :: rest, ∀ s, k'.out (Spec.inDir dir (Spec.obName s r)) = k.out (Spec.inDir dir (Spec.obName s r)) := by
  rcases C147_failed_call geod fs fuel xe runs a k k' e pdir hd h with h0 | ⟨before, resp, rest, h1, -, h3⟩
  · exact .inl h0
  · right
    have hnd : (before ++ resp :: rest).Nodup := h1 ▸ (by decide : Spec.respOrder.Nodup)
    obtain ⟨run', hr⟩ := resultsOf_some (runs pdir) before (resp :: rest)
      (fun r hb hm => (List.nodup_append.1 hnd).2.2 r hb r hm rfl)
    have hs := h3 (fun _ => run') hr
    refine ⟨before, resp, rest, fun _ => run', h1, hr, hs, fun r hm s => ?_⟩
    apply Decidable.byContradiction
    intro hne
    obtain ⟨s', r', hp, hn⟩ := (C147_other_files geod fs fuel xe _ a k k' _ pdir dir hd hdir hs).2.2 _ hne
    exact hr.none_ r hm (obName_resp (inDir_inj hn) ▸ hp)

/-! ## Cases -/

namespace ExFailed

/-- The results of `S` at step 3 are missing. -/
def runs : Text → RunDir Toy := fun _ =>
  { names := ["T.0000000012.data", "T.0000000003.data", "S.0000000012.data", "U.0000000003.data"].map String.toList
    grid := fun _ => none
    read := fun r t => if r = "S".toList ∧ t = 3 then .error .ioError else .ok ⟨2, 1, some 2, fun _ _ d => .ofInt (100 * t + d)⟩ }

/-- The same without `S` and what comes after it. -/
def runs' : Text → RunDir Toy := fun _ => { runs [] with names := ["T.0000000012.data", "T.0000000003.data"].map String.toList }

def call : Option (Disk Toy × Py Unit) := getobcs Toy.geod exNoFiles 10 exXe runs (exObArgs 1 fun _ => .missing) exDisk

def seen : Option (Disk Toy × Py Unit) → Option (Bool × List Bool)
  | some (k, .error e) => some (e = .ioError, [["run_obcs/OBNt", "run_obcs/OBNs", "run_obcs/OBWu"].map fun f => (k.out f.toList).isSome].flatten)
  | _ => none

set_option maxRecDepth 40000 in
/-- The call fails; the boundary of `T` has been written, those of `S` and `U` have not. -/
theorem fails : seen call = some (true, [true, false, false]) := by decide +kernel

theorem of_seen {x : Option (Disk Toy × Py Unit)} {y : Bool × List Bool} (h : seen x = some y) :
    ∃ k' e, x = some (k', .error e) ∧ [["run_obcs/OBNt", "run_obcs/OBNs", "run_obcs/OBWu"].map fun f => (k'.out f.toList).isSome].flatten = y.2 := by
  match x, h with
  | some (k, .error e), h =>
    have h := Option.some.inj h
    exact ⟨k, e, rfl, by rw [← h]⟩
  | some (_, .ok _), h => cases h
  | none, h => cases h

/-- The hypotheses of `C147_failed_call` are met, and of its two alternatives this is the second. -/
example : ∃ k' e, getobcs Toy.geod exNoFiles 10 exXe runs (exObArgs 1 fun _ => .missing) exDisk = some (k', .error e) ∧ k'.out ≠ exDisk.out ∧
    ∃ before resp rest, Spec.respOrder = before ++ resp :: rest ∧ Spec.Present (runs "run/".toList).names resp := by
  obtain ⟨k', e, h, ho⟩ := of_seen fails
  have hne : k'.out ≠ exDisk.out := by
    intro h0
    rw [h0] at ho
    revert ho
    decide
  rcases C147_failed_call _ _ _ _ _ _ _ _ _ "run/".toList rfl h with h0 | ⟨b, r, t, h1, h2, -⟩
  · exact absurd h0 hne
  · exact ⟨k', e, h, hne, b, r, t, h1, h2⟩

/-- The directory of the successful call of the theorem. -/
example : Spec.ResultsOf [.T] [.S, .Eta, .W, .U, .UICE, .V, .VICE] (runs "run/".toList) (runs' "run/".toList) where
  grid := rfl
  files r hr := by
    rw [List.mem_singleton] at hr
    subst hr
    rw [← filter_eq, ← filter_eq]
    decide
  read _ _ _ := rfl
  none_ r hr hp := by
    rw [← present_iff] at hp
    revert r
    decide

/-- `C147_other_files` for this call. -/
example : ∃ k' e, getobcs Toy.geod exNoFiles 10 exXe runs (exObArgs 1 fun _ => .missing) exDisk = some (k', .error e) ∧
    ∀ n, k'.out n ≠ exDisk.out n → ∃ s resp, Spec.Present (runs "run/".toList).names resp ∧ n = Spec.inDir "run_obcs".toList (Spec.obName s resp) := by
  obtain ⟨k', e, h, -⟩ := of_seen fails
  exact ⟨k', e, h, (C147_other_files _ _ _ _ _ _ _ _ _ _ _ rfl (exOutDir 1 _) h).2.2⟩

/-- `C147_failed_files` for this call. -/
example : ∃ k' e, getobcs Toy.geod exNoFiles 10 exXe runs (exObArgs 1 fun _ => .missing) exDisk = some (k', .error e) ∧ k'.out ≠ exDisk.out ∧
    ∃ before resp rest, Spec.respOrder = before ++ resp :: rest ∧
      ∀ r ∈ resp :: rest, ∀ s, k'.out (Spec.inDir "run_obcs".toList (Spec.obName s r)) = none := by
  obtain ⟨k', e, h, ho⟩ := of_seen fails
  have hne : k'.out ≠ exDisk.out := by
    intro h0
    rw [h0] at ho
    revert ho
    decide
  rcases C147_failed_files _ _ _ _ _ _ _ _ _ _ _ rfl (exOutDir 1 _) h with h0 | ⟨b, r, t, _, h1, -, -, h4⟩
  · exact absurd h0 hne
  · exact ⟨k', e, h, hne, b, r, t, h1, h4⟩

end ExFailed

end SG
