import Verif.Props.ObcsFailed
/-! # C149: what `getobcs` does not look at: further time steps and deeper levels -/

set_option linter.unusedSectionVars false

namespace SG
variable {F W : Type} [PyFloat F] [F64 F]

/-- The number of levels of an array; a 2-d array has one. -/
def Spec.levelCount (v : Vol F) : Nat :=
  match v.depths with
  | some n => n
  | none => 1

/-- Two results of reading a file: the same, or arrays of the same horizontal size, both 2-d or both with at least `n` levels, that agree in the first `n` levels. -/
def Spec.AgreeTo (n : Nat) (x y : Py (Vol F)) : Prop :=
  x = y ∨ ∃ v w, x = .ok v ∧ y = .ok w ∧ v.rows = w.rows ∧ v.cols = w.cols ∧
    ((v.depths = none ∧ w.depths = none) ∨ ∃ a b, v.depths = some a ∧ w.depths = some b ∧ n ≤ a ∧ n ≤ b) ∧
    ∀ i j l, l < n → v.get i j l = w.get i j l

/-- Two directories with the same grid files, the same `T` files, which are of the time steps `steps` with `first` the earliest, and results of the same responses;
these agree at the first step, and at the other steps in as many levels as there are at the first step. -/
structure Spec.SameUsed (first : Nat) (steps : List Nat) (run run' : RunDir F) : Prop where
  grid : run'.grid = run.grid
  files : run'.names.filter (fun n => decide (Spec.IsResult .T n)) = run.names.filter (fun n => decide (Spec.IsResult .T n))
  present : ∀ r, Spec.Present run'.names r ↔ Spec.Present run.names r
  start : steps ≠ [] → ∀ r, Spec.Present run.names r → run'.read (Spec.respName r) first = run.read (Spec.respName r) first
  later : ∀ r, Spec.Present run.names r → ∀ v, run.read (Spec.respName r) first = .ok v → ∀ t ∈ steps,
    Spec.AgreeTo (Spec.levelCount v) (run.read (Spec.respName r) t) (run'.read (Spec.respName r) t)

theorem foldlM_same {α β : Type} {f g : α → β → Py α} (l : List β) (h : ∀ x ∈ l, ∀ s, f s x = g s x) (s : α) : l.foldlM f s = l.foldlM g s := by
  induction l generalizing s with
  | nil => rfl
  | cons a t ih =>
    rw [List.foldlM_cons, List.foldlM_cons, h a (List.mem_cons_self ..)]
    congr 1
    funext s'
    exact ih (fun x hx => h x (List.mem_cons_of_mem _ hx)) s'

theorem atDepth_agree {n d : Nat} {v w : Vol F} (hd : d < n) (hr : v.rows = w.rows) (hc : v.cols = w.cols)
    (h : (v.depths = none ∧ w.depths = none) ∨ ∃ a b, v.depths = some a ∧ w.depths = some b ∧ n ≤ a ∧ n ≤ b)
    (hg : ∀ i j l, l < n → v.get i j l = w.get i j l) : atDepth w d = atDepth v d := by
  unfold atDepth
  rcases h with ⟨h1, h2⟩ | ⟨a, b, h1, h2, ha, hb⟩
  · rw [h1, h2, hr, hc]
    simp only [hg _ _ 0 (by omega)]
  · rw [h1, h2, hr, hc]
    dsimp only
    rw [if_pos (by omega), if_pos (by omega)]
    simp only [hg _ _ d hd]

theorem assemble_used {xe : Xesmf F W} {r : Kind → Regridder W} {run run' : RunDir F} {obs : Side → List Int × Bool} {ni nj : Nat} {first : Nat} {rest : List Nat}
    {resp : Resp} (h0 : run'.read resp.name first = run.read resp.name first)
    (h : ∀ v, run.read resp.name first = .ok v → ∀ t ∈ first :: rest, Spec.AgreeTo (Spec.levelCount v) (run.read resp.name t) (run'.read resp.name t)) :
    assemble xe r run' obs ni nj (first :: rest) resp = assemble xe r run obs ni nj (first :: rest) resp := by
  unfold assemble
  rw [List.headD_cons, h0]
  cases hv : run.read resp.name first with
  | error e =>
    congr 1
    funext nd
    rw [List.length_cons, List.range_succ_eq_map, List.foldlM_cons, List.foldlM_cons]
    simp only [List.getD_cons_zero, h0, hv]
    rfl
  | ok v =>
    have hn : depthCount (.ok v : Py (Vol F)) = .ok (Spec.levelCount v) := by
      show (Except.ok (v.depths.getD 1) : Py Nat) = _
      unfold Spec.levelCount
      cases v.depths <;> rfl
    rw [hn]
    show List.foldlM _ _ _ = List.foldlM _ _ _
    apply foldlM_same
    intro t ht s
    have hm : (first :: rest).getD t 0 ∈ first :: rest := by
      rw [List.getD_eq_getElem?_getD, List.getElem?_eq_getElem (List.mem_range.1 ht), Option.getD_some]
      exact List.getElem_mem _
    rcases h v hv _ hm with e1 | ⟨x, y, e1, e2, hr, hc, hd, hg⟩
    · rw [e1]
    · rw [e1, e2]
      show List.foldlM _ _ _ = List.foldlM _ _ _
      apply foldlM_same
      intro d hdl s'
      unfold interpolate
      rw [atDepth_agree (List.mem_range.1 hdl) hr hc hd hg]

theorem responses_used {xe : Xesmf F W} {r : Kind → Regridder W} {run run' : RunDir F} {obs : Side → List Int × Bool} {ni nj : Nat} {first : Nat} {rest : List Nat}
    {dir : Text} (l : List Resp) (hp : ∀ x, Spec.Present run'.names x ↔ Spec.Present run.names x)
    (h : ∀ x, Spec.Present run.names x → assemble xe r run' obs ni nj (first :: rest) x = assemble xe r run obs ni nj (first :: rest) x) :
    responses xe r run' obs ni nj (first :: rest) dir l = responses xe r run obs ni nj (first :: rest) dir l := by
  induction l with
  | nil => rfl
  | cons a t ih =>
    funext k
    unfold responses
    rw [ih]
    by_cases hq : Spec.Present run.names a
    · rw [if_pos ((present_iff _ _).2 hq), if_pos ((present_iff _ _).2 ((hp a).2 hq)), h a hq]
    · rw [if_neg (fun e => hq ((present_iff _ _).1 e)), if_neg (fun e => hq ((hp a).1 ((present_iff _ _).1 e)))]

/-- **C149**: whatever results there are of time steps for which there is no `T` file, and whatever deeper levels the results of later steps have than those of
the first: the outcome of `getobcs`, its error if any, and all files are the same. -/
theorem C149_unused (geod : Geod F) (fs : Files F) (fuel : Nat) (xe : Xesmf F W) (runs runs' : Text → RunDir F) (a : ObcsArgs F) (pdir : Text)
    (hd : a.parentResultsdir = some pdir) (files : List (Nat × Text)) (htile : ∀ x ∈ files, ∀ c ∈ x.2.head?, c.isDigit = false)
    (hfiles : (runs pdir).names.filter (fun n => decide (Spec.IsResult .T n)) = files.map fun x => Spec.resultName "T".toList x.1 x.2)
    (first : Nat) (hmin : ∀ x ∈ files, first ≤ x.1) (hfirst : files ≠ [] → ∃ x ∈ files, x.1 = first)
    (h : Spec.SameUsed first (files.map (·.1)) (runs pdir) (runs' pdir)) :
    getobcs geod fs fuel xe runs' a = (getobcs geod fs fuel xe runs a : Act (Disk W) Unit) := by
  unfold getobcs
  rw [hd]
  cases pdir with
  | nil => rfl
  | cons c d =>
    dsimp only
    rw [parent_grid_same a h.grid, times_same h.files]
    rw [resultTimes_spec (runs (c :: d)) files htile (by rw [filter_eq]; exact hfiles)]
    have hperm := pySorted_perm (files.map (·.1))
    have hsort := pySorted_sorted (files.map (·.1))
    generalize pySorted (files.map (·.1)) = times at hperm hsort
    cases times with
    | nil => rfl
    | cons t rest =>
      have hmem : ∀ s ∈ t :: rest, s ∈ files.map (·.1) := fun s hs => hperm.mem_iff.1 hs
      have ht0 : t = first := by
        obtain ⟨x, hx, rfl⟩ := List.mem_map.1 (hmem t (List.mem_cons_self ..))
        obtain ⟨y, hy, e⟩ := hfirst (List.ne_nil_of_mem hx)
        have h1 := hmin x hx
        have : first ∈ x.1 :: rest := hperm.mem_iff.2 (List.mem_map.2 ⟨y, hy, e⟩)
        rcases List.mem_cons.1 this with h2 | h2
        · exact h2.symm
        · exact Nat.le_antisymm ((List.pairwise_cons.1 hsort).1 _ h2) h1
      subst ht0
      have hT : Spec.Present (runs (c :: d)).names .T := by
        obtain ⟨x, hx, -⟩ := List.mem_map.1 (hmem t (List.mem_cons_self ..))
        have : Spec.resultName "T".toList x.1 x.2 ∈ (runs (c :: d)).names.filter (fun n => decide (Spec.IsResult .T n)) := by
          rw [hfiles]; exact List.mem_map.2 ⟨x, hx, rfl⟩
        exact ⟨_, (List.mem_filter.1 this).1, of_decide_eq_true (List.mem_filter.1 this).2⟩
      have hne : files.map (·.1) ≠ [] := List.ne_nil_of_mem (hmem t (List.mem_cons_self ..))
      have e := h.start hne .T hT
      rw [← respName_eq] at e
      have hres : ∀ (r : Kind → Regridder W) obs ni nj dir, responses xe r (runs' (c :: d)) obs ni nj (t :: rest) dir Resp.all =
          responses xe r (runs (c :: d)) obs ni nj (t :: rest) dir Resp.all := by
        intro r obs ni nj dir
        refine responses_used _ h.present fun x hx => ?_
        have e1 := h.start hne x hx
        have e2 := h.later x hx
        rw [← respName_eq] at e1 e2
        exact assemble_used e1 fun v hv s hs => e2 v hv s (hmem s hs)
      congr 1; funext p
      congr 1; funext g
      congr 1; funext obs
      congr 1; funext r
      show Act.bind (Act.lift ((runs' (c :: d)).read Resp.T.name t)) (fun _ => responses xe r (runs' (c :: d)) obs g.2.1 g.2.2 (t :: rest) _ Resp.all) =
        Act.bind (Act.lift ((runs (c :: d)).read Resp.T.name t)) (fun _ => responses xe r (runs (c :: d)) obs g.2.1 g.2.2 (t :: rest) _ Resp.all)
      rw [e, hres]

/-- **C149** (steps and levels that are missing): if `getobcs` returns, every response of which there are results could be read at every step for which there is
a `T` file, with at least as many levels as at the first step, or as a 2-d array. -/
theorem C149_missing (geod : Geod F) (fs : Files F) (fuel : Nat) (xe : Xesmf F W) (runs : Text → RunDir F) (a : ObcsArgs F) (k k' : Disk W) (pdir : Text)
    (hd : a.parentResultsdir = some pdir) (files : List (Nat × Text)) (htile : ∀ x ∈ files, ∀ c ∈ x.2.head?, c.isDigit = false)
    (hfiles : (runs pdir).names.filter (fun n => decide (Spec.IsResult .T n)) = files.map fun x => Spec.resultName "T".toList x.1 x.2)
    (first : Nat) (hmin : ∀ x ∈ files, first ≤ x.1) (hfirst : files ≠ [] → ∃ x ∈ files, x.1 = first)
    (h : getobcs geod fs fuel xe runs a k = some (k', .ok ())) (r : Resp) (hr : Spec.Present (runs pdir).names r) :
    ∃ v0, (runs pdir).read (Spec.respName r) first = .ok v0 ∧ ∀ x ∈ files, ∃ v, (runs pdir).read (Spec.respName r) x.1 = .ok v ∧
      ∀ n, v.depths = some n → Spec.levelCount v0 ≤ n := by
  obtain ⟨pd, pn, pm, gd, ni, nj, g, times, -, -, -, hperm, hsort, hne, hout, -⟩ :=
    C54_assembly geod fs fuel xe runs a k k' pdir _ hd (outDir_spec a pdir) files htile hfiles h
  obtain ⟨A, bytes, -, -, -, -, ⟨v0, hv0, hn⟩, hall⟩ := hout r hr .N
  have ht0 : times.headD 0 = first := by
    cases times with
    | nil => exact absurd rfl hne
    | cons t rest =>
      obtain ⟨x, hx, rfl⟩ := List.mem_map.1 (hperm.mem_iff.1 (List.mem_cons_self ..))
      obtain ⟨y, hy, e⟩ := hfirst (List.ne_nil_of_mem hx)
      have h1 := hmin x hx
      rcases List.mem_cons.1 (hperm.mem_iff.2 (List.mem_map.2 ⟨y, hy, e⟩)) with h2 | h2
      · exact h2.symm
      · exact Nat.le_antisymm ((List.pairwise_cons.1 hsort).1 _ h2) h1
  rw [ht0] at hv0
  refine ⟨v0, hv0, fun x hx => ?_⟩
  obtain ⟨t, ht, e⟩ := List.getElem_of_mem (hperm.mem_iff.2 (List.mem_map.2 ⟨x, hx, rfl⟩))
  obtain ⟨v, hv, hd⟩ := hall t ht
  rw [e] at hv
  refine ⟨v, hv, fun n hvn => ?_⟩
  have hl : Spec.levelCount v0 = A.n1 := by
    rw [hn]
    unfold Spec.levelCount
    cases v0.depths <;> rfl
  rw [hl]
  refine Nat.le_of_not_lt fun hlt => ?_
  obtain ⟨M, ⟨h1, -⟩, -⟩ := hd n hlt
  exact Nat.lt_irrefl _ (h1 n hvn)

/-! ## Cases -/

namespace ExUnused

/-- The directory of `exNames` with a further step of `U`; the results of step 12 have five levels instead of two. -/
def more : Text → RunDir Toy := fun _ =>
  { names := (exNames ++ ["U.0000000099.data"]).map String.toList
    grid := fun _ => none
    read := fun _ t => if t = 12 then .ok ⟨2, 1, some 5, fun _ _ d => .ofInt (100 * t + d)⟩
      else if t = 3 then .ok ⟨2, 1, some 2, fun _ _ d => .ofInt (100 * t + d)⟩ else .ok ⟨7, 7, none, fun _ _ _ => .ofInt 9⟩ }

def present (names : List String) (r : Resp) : Bool := (names.map String.toList).any (isResult r.name)

theorem presents : ∀ r, present (exNames ++ ["U.0000000099.data"]) r = present exNames r := by
  intro r
  cases r <;> decide +kernel

theorem used : Spec.SameUsed 3 [12, 3] (exResults exNames "run/".toList) (more "run/".toList) where
  grid := rfl
  files := by rw [← filter_eq, ← filter_eq]; decide +kernel
  present r := by
    rw [← present_iff, ← present_iff]
    show present (exNames ++ ["U.0000000099.data"]) r = true ↔ present exNames r = true
    rw [presents]
  start _ _ _ := rfl
  later _ _ v hv t ht := by
    cases hv
    rcases List.mem_cons.1 ht with rfl | ht
    · exact .inr ⟨_, _, rfl, rfl, rfl, rfl, .inr ⟨2, 5, rfl, rfl, by decide, by decide⟩, fun _ _ _ _ => rfl⟩
    · cases List.mem_singleton.1 ht
      exact .inr ⟨_, _, rfl, rfl, rfl, rfl, .inr ⟨2, 2, rfl, rfl, by decide, by decide⟩, fun _ _ _ _ => rfl⟩

theorem same : getobcs Toy.geod exNoFiles 10 exXe more (exObArgs 1 fun _ => .missing) =
    (getobcs Toy.geod exNoFiles 10 exXe (exResults exNames) (exObArgs 1 fun _ => .missing) : Act (Disk Toy) Unit) :=
  C149_unused _ _ _ _ _ _ _ _ rfl [(12, []), (3, [])] (by decide) (by rw [← filter_eq]; decide +kernel) 3 (by decide) (fun _ => ⟨(3, []), by decide, rfl⟩) used

set_option maxRecDepth 40000 in
/-- The call returns; the boundary file has two levels. -/
example : exShow (getobcs Toy.geod exNoFiles 10 exXe more (exObArgs 1 fun _ => .missing) exDisk) ["run_obcs/OBWt", "run_obcs/OBWu"] =
    some [some [1300, 2200, 1301, 2201], some [1310, 2210, 1311, 2211]] := by rw [same]; decide +kernel

example : ∃ k', exCall 1 (fun _ => .missing) exNames exDisk = some (k', .ok ()) ∧ ∃ v0, (exResults exNames "run/".toList).read "U".toList 3 = .ok v0 ∧
    ∀ x ∈ [(12, ([] : Text)), (3, [])], ∃ v, (exResults exNames "run/".toList).read "U".toList x.1 = .ok v ∧ ∀ n, v.depths = some n → Spec.levelCount v0 ≤ n := by
  obtain ⟨k', h⟩ := exCall_ok
  exact ⟨k', h, C149_missing _ _ _ _ _ _ _ _ _ rfl [(12, []), (3, [])] (by decide) (by rw [← filter_eq]; decide +kernel) 3 (by decide)
    (fun _ => ⟨(3, []), by decide, rfl⟩) h .U ((present_iff _ _).1 (by decide +kernel))⟩

end ExUnused

end SG
