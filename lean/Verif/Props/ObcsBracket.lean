import Verif.Model.ObcsGlob
import Verif.Props.MdsBracket
import Verif.Props.ObcsFailed
/-! # C148: brackets in the name of the results directory of `getobcs` -/

set_option linter.unusedSectionVars false

namespace SG
variable {F W : Type} [PyFloat F] [F64 F] [F32 F]

theorem pathJoin_bracket {c : Char} (hc : Spec.Ordinary c) (x y n : Text) : ∃ t,
    pathJoin (x ++ '[' :: c :: ']' :: y) n = x ++ '[' :: c :: ']' :: t ∧ pathJoin (x ++ c :: y) n = x ++ c :: t := by
  have hcs : c ≠ '/' := fun h => hc (by rw [h]; decide)
  unfold pathJoin
  have e1 : x ++ '[' :: c :: ']' :: y ≠ [] := by simp
  have e2 : x ++ c :: y ≠ [] := by simp
  cases y with
  | nil =>
    refine ⟨'/' :: n, ?_, ?_⟩
    · rw [if_neg (by simp), List.append_assoc]; rfl
    · rw [if_neg (by simp [hcs]), List.append_assoc]; rfl
  | cons b y =>
    obtain ⟨z, hz⟩ : ∃ z, (b :: y).getLast? = some z := ⟨_, List.getLast?_eq_some_getLast (by simp)⟩
    have l1 : (x ++ '[' :: c :: ']' :: b :: y).getLast? = (b :: y).getLast? := by
      rw [show x ++ '[' :: c :: ']' :: b :: y = (x ++ ['[', c, ']']) ++ (b :: y) by simp, List.getLast?_append, hz]
      rfl
    have l2 : (x ++ c :: b :: y).getLast? = (b :: y).getLast? := by
      rw [show x ++ c :: b :: y = (x ++ [c]) ++ (b :: y) by simp, List.getLast?_append, hz]
      rfl
    by_cases h : (b :: y).getLast? = some '/'
    · refine ⟨b :: y ++ n, ?_, ?_⟩
      · rw [if_pos (.inr (l1.trans h)), List.append_assoc]; rfl
      · rw [if_pos (.inr (l2.trans h)), List.append_assoc]; rfl
    · refine ⟨b :: y ++ '/' :: n, ?_, ?_⟩
      · rw [if_neg (fun e => e.elim e1 (fun e => h (l1 ▸ e))), List.append_assoc]; rfl
      · rw [if_neg (fun e => e.elim e2 (fun e => h (l2 ▸ e))), List.append_assoc]; rfl

theorem runDirG_bracket (pf : Text → Py F) (d : MdsDir) (x y : Text) (c : Char) (hx : ∀ a ∈ x, a ≠ '[') (hc : Spec.Ordinary c) :
    d.runDirG pf (x ++ '[' :: c :: ']' :: y) = d.runDirG pf (x ++ c :: y) := by
  unfold MdsDir.runDirG
  congr 1
  · obtain ⟨t, h1, h2⟩ := pathJoin_bracket hc x y ['*']
    have := globbed_bracket hc hx d t []
    rw [List.append_nil, List.append_nil] at this
    rw [h1, h2, this]
  · funext f
    have := C145_brackets pf d x (y ++ '/' :: f.text) c { fill := Arith.zero } hx hc
    rw [List.append_assoc, List.append_assoc]
    show (match rdmdsG pf d (x ++ '[' :: c :: ']' :: (y ++ '/' :: f.text)) _ with | .error _ => _ | .ok a => _) = _
    rw [this]
    rfl
  · funext r t
    obtain ⟨u, h1, h2⟩ := pathJoin_bracket hc x y r
    rw [h1, h2, C145_brackets pf d x u c _ hx hc]

/-- **C148** (brackets): `getobcs` for the results directory `x[c]y` does what it does for the directory `xcy`, except that the name of the output directory is
made from `x[c]y`. -/
theorem C148_brackets (geod : Geod F) (fs : Files F) (fuel : Nat) (xe : Xesmf F W) (pf : Text → Py F) (d : MdsDir) (a : ObcsArgs F) (x y dir : Text) (c : Char)
    (hx : ∀ b ∈ x, b ≠ '[') (hc : Spec.Ordinary c) (ha : a.parentResultsdir = some (x ++ '[' :: c :: ']' :: y))
    (hdir : Spec.OutDir a (x ++ '[' :: c :: ']' :: y) dir) (k : Disk W) :
    getobcs geod fs fuel xe (d.runDirG pf) a k =
      getobcs geod fs fuel xe (d.runDirG pf) { a with parentResultsdir := some (x ++ c :: y), resultsdir := some dir } k := by
  have hne : dir ≠ [] := by
    obtain ⟨h1, h2⟩ := hdir
    rcases hr : a.resultsdir with _ | ⟨_ | ⟨b, e⟩⟩
    · obtain ⟨p, _, -, -, -, h⟩ := h2 (.inl hr)
      rw [h]; simp
    · obtain ⟨p, _, -, -, -, h⟩ := h2 (.inr hr)
      rw [h]; simp
    · rw [h1 _ hr (by simp)]; simp
  obtain ⟨p, q, e1⟩ : ∃ p q, x ++ '[' :: c :: ']' :: y = p :: q := by cases x <;> exact ⟨_, _, rfl⟩
  obtain ⟨p', q', e2⟩ : ∃ p q, x ++ c :: y = p :: q := by cases x <;> exact ⟨_, _, rfl⟩
  have hrun := runDirG_bracket pf d x y c hx hc
  have hout := outDir_unique hdir
  have hout' : resultsDirOf { a with parentResultsdir := some (x ++ c :: y), resultsdir := some dir } (x ++ c :: y) = dir := by
    cases dir with
    | nil => exact absurd rfl hne
    | cons b e => rfl
  rw [e1] at hrun hout ha
  rw [e2] at hrun hout'
  unfold getobcs
  rw [ha, e2]
  dsimp only
  rw [hrun, ← hout, hout']
  rfl

/-! ## Directories without brackets -/

theorem responses_same {xe : Xesmf F W} {r : Kind → Regridder W} {run run' : RunDir F} {obs : Side → List Int × Bool} {ni nj : Nat} {times : List Nat} {dir : Text}
    (l : List Resp) (h : ∀ x ∈ l, run'.names.filter (fun n => decide (Spec.IsResult x n)) = run.names.filter (fun n => decide (Spec.IsResult x n)))
    (h' : ∀ x ∈ l, ∀ t, run'.read (Spec.respName x) t = run.read (Spec.respName x) t) :
    responses xe r run' obs ni nj times dir l = responses xe r run obs ni nj times dir l := by
  induction l with
  | nil => rfl
  | cons a t ih =>
    funext k
    unfold responses
    rw [present_files (h a (List.mem_cons_self ..)), assemble_read (h' a (List.mem_cons_self ..)),
      ih (fun x hx => h x (List.mem_cons_of_mem _ hx)) (fun x hx => h' x (List.mem_cons_of_mem _ hx))]

theorem getobcs_same (geod : Geod F) (fs : Files F) (fuel : Nat) (xe : Xesmf F W) {runs runs' : Text → RunDir F} {a : ObcsArgs F} {pdir : Text}
    (ha : a.parentResultsdir = some pdir) (h : Spec.ResultsOf Spec.respOrder [] (runs pdir) (runs' pdir)) :
    getobcs geod fs fuel xe runs' a = getobcs geod fs fuel xe runs a := by
  unfold getobcs
  rw [ha]
  cases pdir with
  | nil => rfl
  | cons c d =>
    dsimp only
    rw [parent_grid_same a h.grid, times_same (h.files .T (by decide))]
    have e := h.read .T (by decide)
    rw [← respName_eq] at e
    simp only [e, responses_same Resp.all h.files h.read]

theorem basePart_join {a b : Text} (hb : '/' ∉ b) : basePart (a ++ '/' :: b) = b := by
  unfold basePart
  rw [List.reverse_append, List.reverse_cons, List.append_assoc, List.takeWhile_append_of_pos]
  · simp
  · intro c hc
    rw [List.mem_reverse] at hc
    exact decide_eq_true fun e => hb (e ▸ hc)

theorem compMatch_star (n : Text) : compMatch ['*'] n = (n.head? != some '.') := by
  unfold compMatch
  have : patMatch (parsePat 1 ['*']) n = true := by
    show (ends n).any (patMatch []) = true
    rw [List.any_eq_true]
    refine ⟨[], ?_, rfl⟩
    induction n with
    | nil => exact List.mem_singleton.2 rfl
    | cons c n ih => exact List.mem_cons_of_mem _ ih
  show ((n.head? != some '.' || _) && patMatch (parsePat 1 ['*']) n) = _
  rw [this]
  simp

/-- **C148** (own files): for a directory whose name has no special characters, `getobcs` finds exactly the files of this directory.  `entries` are the files
one directory below, `flat` are those of the directory. -/
theorem C148_own_directory (geod : Geod F) (fs : Files F) (fuel : Nat) (xe : Xesmf F W) (pf : Text → Py F) (d flat : MdsDir) (a : ObcsArgs F) (run : Text)
    (entries : List (Text × Text)) (hr : Spec.Plain run) (hne : run ≠ []) (ha : a.parentResultsdir = some run)
    (hnames : (d.names.filter fun n => n.count '/' = 1) = entries.map fun e => e.1 ++ '/' :: e.2) (hs : ∀ e ∈ entries, '/' ∉ e.1 ∧ '/' ∉ e.2)
    (hflat : flat.names = (entries.filter fun e => e.1 = run).map fun e => e.2) (hnd : flat.names.Nodup)
    (hsame : ∀ e ∈ entries, e.1 = run → flat.text e.2 = d.text (e.1 ++ '/' :: e.2) ∧ flat.data e.2 = d.data (e.1 ++ '/' :: e.2)) :
    getobcs geod fs fuel xe (d.runDirG pf) a = (getobcs geod fs fuel xe (fun _ => flat.runDir pf) a : Act (Disk W) Unit) := by
  have hsl : '/' ∉ run := fun h => (hr _ h).2.2.2 rfl
  have hjoin : ∀ n, pathJoin run n = run ++ '/' :: n := by
    intro n
    unfold pathJoin
    rw [if_neg]
    rintro (h | h)
    · exact hne h
    · exact hsl (List.mem_of_getLast? h)
  have hrd : ∀ (b : Text) (args : RdArgs F), Spec.Plain b → rdmdsG pf d (run ++ '/' :: b) args = rdmds pf flat b args := by
    intro b args hb
    exact C143_wildcard_directories pf d flat run b args entries (fun s => decide (s = run)) (fun c hc => ⟨(hr c hc).2.2.1, (hr c hc).2.2.2⟩)
      hb hnames hs (fun s => by rw [decide_eq_true_eq, expands_plain hr]) hflat hnd (fun e he h => hsame e he (of_decide_eq_true h))
      (fun stem a b h1 h2 _ _ => (of_decide_eq_true h1).trans (of_decide_eq_true h2).symm)
  refine getobcs_same geod fs fuel xe ha ⟨?_, fun r _ => ?_, fun r _ t => ?_, fun r hr => by cases hr⟩
  · funext f
    show (match rdmdsG pf d (run ++ '/' :: f.text) _ with | .error _ => _ | .ok a => _) = _
    rw [hrd _ _ (plain_field f)]
    rfl
  · show ((d.globbed (pathJoin run ['*'])).map basePart).filter _ = flat.names.filter _
    rw [hjoin, globbed_depth, count_one hsl (by decide), hnames, hflat, List.filter_map, List.filter_filter, List.filter_map, List.map_map, List.filter_map,
      List.filter_filter]
    have hm : ∀ l : List (Text × Text), (∀ e ∈ l, e ∈ entries) → l.map (basePart ∘ fun e => e.1 ++ '/' :: e.2) = l.map fun e => e.2 := by
      intro l hl
      apply List.map_congr_left
      intro e he
      exact basePart_join (hs e (hl e he)).2
    rw [hm _ (fun e he => (List.mem_filter.1 he).1)]
    congr 1
    apply List.filter_congr
    intro e he
    show (decide (Spec.IsResult r (basePart (e.1 ++ '/' :: e.2))) && pathMatch (run ++ '/' :: ['*']) (e.1 ++ '/' :: e.2)) =
      (decide (Spec.IsResult r e.2) && decide (e.1 = run))
    rw [basePart_join (hs e he).2, pathMatch_dir hsl (by decide) (hs e he).1 (hs e he).2, compMatch_star]
    have hw : compMatch run e.1 = decide (e.1 = run) := by
      rw [Bool.eq_iff_iff, decide_eq_true_eq, ← expands_plain hr, compMatch_shell _ (fun c hc => (hr c hc).2.2.1)]
    rw [hw]
    by_cases hres : Spec.IsResult r e.2
    · have : (e.2.head? != some '.') = true := by
        obtain ⟨mid, h⟩ := hres
        rw [h]
        cases r <;> rfl
      rw [this, Bool.and_true]
    · rw [decide_eq_false hres]
      rfl
  · show (rdmdsG pf d (pathJoin run (Spec.respName r)) _).bind volOf = _
    rw [hjoin, hrd _ _ (by cases r <;> (unfold Spec.Plain; decide))]
    rfl

/-- **C148** (nothing found): if there is no directory `xcy`, `getobcs` for the results directory `x[c]y` ends in an error, if it ends, whatever results there are in
`x[c]y`; no boundary file is written. -/
theorem C148_not_found (geod : Geod F) (fs : Files F) (fuel : Nat) (xe : Xesmf F W) (pf : Text → Py F) (d : MdsDir) (a : ObcsArgs F) (x y : Text) (c : Char)
    (entries : List (Text × Text)) (hx : Spec.Plain x) (hy : Spec.Plain y) (hc : Spec.Ordinary c)
    (ha : a.parentResultsdir = some (x ++ '[' :: c :: ']' :: y))
    (hnames : (d.names.filter fun n => n.count '/' = 1) = entries.map fun e => e.1 ++ '/' :: e.2) (hs : ∀ e ∈ entries, '/' ∉ e.1 ∧ '/' ∉ e.2)
    (hno : ∀ e ∈ entries, e.1 ≠ x ++ c :: y) (k k' : Disk W) (r : Py Unit) (h : getobcs geod fs fuel xe (d.runDirG pf) a k = some (k', r)) :
    (∃ e, r = .error e) ∧ k'.out = k.out := by
  have hf : (entries.filter fun e => e.1 = x ++ c :: y) = [] := by
    rw [List.filter_eq_nil_iff]
    intro e he h
    exact hno e he (of_decide_eq_true h)
  rw [C148_brackets geod fs fuel xe pf d a x y _ c (fun b hb => (hx b hb).2.2.1) hc ha (outDir_spec a _),
    C148_own_directory geod fs fuel xe pf d ⟨[], d.text, d.data⟩ _ (x ++ c :: y) entries (plain_around hx hy hc) (by simp) rfl hnames hs (by rw [hf]; rfl)
      List.nodup_nil (fun e he h => absurd h (hno e he))] at h
  generalize hb : ({ a with parentResultsdir := some (x ++ c :: y), resultsdir := some (resultsDirOf a (x ++ '[' :: c :: ']' :: y)) } : ObcsArgs F) = b at h
  rcases getobcs_parts geod fs fuel xe (fun _ => MdsDir.runDir pf ⟨[], d.text, d.data⟩) b with ⟨e, he⟩ | ⟨pdir, p, g, obs, -, -, -, -, hsplit⟩
  · rw [he] at h
    cases h
    exact ⟨⟨e, rfl⟩, rfl⟩
  · rw [hsplit] at h
    unfold Act.bind at h
    cases hg : regridders geod fs fuel xe (resultsDirOf b pdir) p g k with
    | none => rw [hg] at h; cases h
    | some z =>
      obtain ⟨k1, r1⟩ := z
      rw [hg] at h
      have hout := (adds_regridders geod fs fuel xe _ p g _ _ _ hg).1
      cases r1 with
      | error e => cases h; exact ⟨⟨e, rfl⟩, hout⟩
      | ok rg =>
        change (some (k1, (Except.error PyErr.indexError : Py Unit)) : Option (Disk W × Py Unit)) = _ at h
        cases h
        exact ⟨⟨_, rfl⟩, hout⟩

/-! ## Cases -/

namespace ExObcsBracket
open ExTiles ExBracket

def meta1 : Text := "dimList = [ 2, 1, 2, 1, 1, 1, 2, 1, 2 ];\ndataprec = [ 'float64' ];\nnrecords = [ 1 ];\n".toList

/-- Results of `run1` and of `run[1]`. -/
def entries : List (Text × Text) :=
  [("run[1]".toList, "T.0000000003.meta".toList), ("run[1]".toList, "T.0000000003.data".toList),
    ("run1".toList, "T.0000000003.meta".toList), ("run1".toList, "T.0000000003.data".toList)]

/-- The numbers in `run[1]` are 1 to 4, those in `run1` are 11 to 14. -/
def bytes (n : Text) : List Byte :=
  (List.range 4).flatMap fun k => itemBytes .f64 .big (⟨BitVec.ofNat 64 (k + if n.take 5 = "run1/".toList then 11 else 1)⟩ : Toy)

def dir : MdsDir := ⟨entries.map fun e => e.1 ++ '/' :: e.2, fun _ => meta1, bytes⟩

def args (rundir : String) : ObcsArgs Toy := { exObArgs 1 (fun _ => .missing) with parentResultsdir := some rundir.toList }

def call (d : MdsDir) (rundir : String) : Option (Disk Toy × Py Unit) :=
  getobcs Toy.geod exNoFiles 10 exXe (d.runDirG ExTiles.pf) (args rundir) exDisk

theorem outDir : Spec.OutDir (args "run[1]") "run[1]".toList "run[1]_obcs".toList :=
  ⟨fun d h => (by cases h), fun _ => ⟨"run[1]".toList, [], by decide, by decide, by decide, by decide⟩⟩

set_option maxRecDepth 40000 in
/-- `getobcs` for `run[1]` succeeds, with the numbers of `run1`. -/
example : exShow (call dir "run[1]") ["run[1]_obcs/OBWt", "run1_obcs/OBWt"] = exShow (call dir "run1") ["run1_obcs/OBWt", "run[1]_obcs/OBWt"] ∧
    (exShow (call dir "run[1]") ["run[1]_obcs/OBWt"]).isSome = true := by decide +kernel

example : call dir "run[1]" = getobcs Toy.geod exNoFiles 10 exXe (dir.runDirG ExTiles.pf)
    { args "run[1]" with parentResultsdir := some "run1".toList, resultsdir := some "run[1]_obcs".toList } exDisk :=
  C148_brackets _ _ _ _ ExTiles.pf dir (args "run[1]") "run".toList [] "run[1]_obcs".toList '1' (by decide +kernel) ordinary_1 rfl outDir exDisk

example : getobcs Toy.geod exNoFiles 10 exXe (dir.runDirG ExTiles.pf) (args "run1") =
    (getobcs Toy.geod exNoFiles 10 exXe (fun _ => MdsDir.runDir ExTiles.pf
      ⟨["T.0000000003.meta".toList, "T.0000000003.data".toList], fun _ => meta1, fun n => bytes ("run1/".toList ++ n)⟩) (args "run1") : Act (Disk Toy) Unit) :=
  C148_own_directory _ _ _ _ ExTiles.pf dir _ (args "run1") "run1".toList entries (by unfold Spec.Plain; decide +kernel) (by decide) rfl (by decide +kernel)
    (by decide +kernel) (by decide +kernel) (by decide +kernel) (fun e _ h => by
      obtain ⟨a, b⟩ := e
      dsimp only at h
      subst h
      exact ⟨rfl, rfl⟩)

/-- Only `run[1]` is there. -/
def single : MdsDir := { dir with names := (entries.take 2).map fun e => e.1 ++ '/' :: e.2 }

set_option maxRecDepth 40000 in
theorem ends_ : (call single "run[1]").isSome = true := by decide +kernel

example : ∃ k' r, call single "run[1]" = some (k', r) ∧ (∃ e, r = .error e) ∧ k'.out = exDisk.out := by
  obtain ⟨⟨k', r⟩, h⟩ := Option.isSome_iff_exists.1 ends_
  exact ⟨k', r, h, C148_not_found _ _ _ _ ExTiles.pf single (args "run[1]") "run".toList [] '1' (entries.take 2) (by unfold Spec.Plain; decide +kernel) plain_nil
    ordinary_1 rfl (by decide +kernel) (by decide +kernel) (by decide +kernel) _ _ _ h⟩

end ExObcsBracket

end SG
