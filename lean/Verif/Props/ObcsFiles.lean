import Verif.Props.ObcsUnused
import Verif.Props.MdsFrame
import Verif.Props.RunFiles
import Verif.Props.ObcsBracket
/-! # C151: the files `getobcs` depends on -/

set_option linter.unusedSectionVars false

namespace SG
variable {F W : Type} [PyFloat F] [F64 F] [F32 F]

/-- The files of a field at a time step begin with the name of the field, a dot and the step in ten digits. -/
def Spec.stepName (base : Text) (t : Nat) : Text := base ++ '.' :: (List.replicate (10 - (natText t).length) '0' ++ natText t)

theorem one_step (pf : Text → Py F) (d : MdsDir) (base : Text) (t : Nat) (args : RdArgs F) :
    rdmds pf d base { args with itrs := .one t } = rdmds pf d (Spec.stepName base t) { args with itrs := .noItr } := by
  rfl

/-- **C151** (one step): `rdmds('base',t,...)` depends only on the files `base.<t in ten digits>.*`. -/
theorem C151_one_step (pf : Text → Py F) (d d' : MdsDir) (base : Text) (t : Nat) (args : RdArgs F) (h : Spec.SameFiles d d' (Spec.stepName base t)) :
    rdmds pf d base { args with itrs := .one t } = rdmds pf d' base { args with itrs := .one t } := by
  rw [one_step, one_step, C146_own_files_only pf d d' _ _ h]

/-- Two directories with the same files of the 16 grid fields, `T` files of the same names (of the steps `steps`), and results of the same responses;
the files of these at the steps of `T` are the same. -/
structure Spec.SameInput (steps : List Nat) (d d' : MdsDir) : Prop where
  grid : ∀ f : Field, Spec.SameFiles d d' f.text
  files : d'.names.filter (fun n => decide (Spec.IsResult .T n)) = d.names.filter (fun n => decide (Spec.IsResult .T n))
  present : ∀ r, Spec.Present d'.names r ↔ Spec.Present d.names r
  results : ∀ r, Spec.Present d.names r → ∀ t ∈ steps, Spec.SameFiles d d' (Spec.stepName (Spec.respName r) t)

/-- **C151** (input files): `getobcs` depends only on the files of the grid fields, on the names of the `T` data files, on which responses have data files at all,
and on the files of these responses at the steps of `T`. -/
theorem C151_input_files (geod : Geod F) (fs : Files F) (fuel : Nat) (xe : Xesmf F W) (pf : Text → Py F) (runs runs' : Text → MdsDir) (a : ObcsArgs F) (pdir : Text)
    (hd : a.parentResultsdir = some pdir) (files : List (Nat × Text)) (htile : ∀ x ∈ files, ∀ c ∈ x.2.head?, c.isDigit = false)
    (hfiles : (runs pdir).names.filter (fun n => decide (Spec.IsResult .T n)) = files.map fun x => Spec.resultName "T".toList x.1 x.2)
    (h : Spec.SameInput (files.map (·.1)) (runs pdir) (runs' pdir)) :
    getobcs geod fs fuel xe (fun p => (runs' p).runDir pf) a = (getobcs geod fs fuel xe (fun p => (runs p).runDir pf) a : Act (Disk W) Unit) := by
  have hread : ∀ r, Spec.Present (runs pdir).names r → ∀ t ∈ files.map (·.1),
      ((runs' pdir).runDir pf).read (Spec.respName r) t = ((runs pdir).runDir pf).read (Spec.respName r) t := by
    intro r hr t ht
    show (rdmds pf (runs' pdir) _ _).bind volOf = (rdmds pf (runs pdir) _ _).bind volOf
    have := C151_one_step pf _ _ _ t { fill := Arith.zero } (h.results r hr t ht)
    rw [this]
  obtain ⟨first, hmin, hfirst⟩ : ∃ first, (∀ x ∈ files, first ≤ x.1) ∧ (files ≠ [] → ∃ x ∈ files, x.1 = first) := by
    clear hfiles h hread htile
    induction files with
    | nil => exact ⟨0, (fun _ h => by cases h), fun h => absurd rfl h⟩
    | cons y l ih =>
      obtain ⟨m, h1, h2⟩ := ih
      by_cases hl : l = []
      · subst hl
        exact ⟨y.1, fun x hx => by cases List.mem_singleton.1 hx; exact Nat.le_refl _, fun _ => ⟨y, List.mem_cons_self .., rfl⟩⟩
      · obtain ⟨z, hz, e⟩ := h2 hl
        by_cases hy : y.1 ≤ m
        · refine ⟨y.1, fun x hx => ?_, fun _ => ⟨y, List.mem_cons_self .., rfl⟩⟩
          rcases List.mem_cons.1 hx with rfl | hx
          · exact Nat.le_refl _
          · exact Nat.le_trans hy (h1 x hx)
        · refine ⟨m, fun x hx => ?_, fun _ => ⟨z, List.mem_cons_of_mem _ hz, e⟩⟩
          rcases List.mem_cons.1 hx with rfl | hx
          · omega
          · exact h1 x hx
  refine C149_unused geod fs fuel xe _ _ a pdir hd files htile hfiles first hmin hfirst ⟨?_, h.files, h.present, fun hne r hr => ?_, fun r hr _ _ t ht => .inl ?_⟩
  · funext f
    show (match rdmds pf (runs' pdir) f.text _ with | .error _ => _ | .ok a => _) = _
    rw [← C146_own_files_only pf _ _ _ _ (h.grid f)]
    rfl
  · obtain ⟨x, hx, e⟩ := hfirst (fun e => hne (by rw [e]; rfl))
    exact hread r hr first (List.mem_map.2 ⟨x, hx, e⟩)
  · exact (hread r hr t ht).symm

/-! ## Cases -/

namespace ExObcsFiles

/-- Temperature at step 3. -/
def small : MdsDir := ⟨["T.0000000003.meta".toList, "T.0000000003.data".toList], fun _ => ExObcsBracket.meta1, ExObcsBracket.bytes⟩

/-- The same with further files: a meta file of another step, a pickup file, and a data file of a field whose name begins with `T`. -/
def large : MdsDir := { small with names := ["T.0000000009.meta".toList, "pickup.0000000003.data".toList] ++ small.names ++ ["Ttave.0000000003.data".toList] }

theorem same : Spec.SameInput [3] small large where
  grid f := ⟨by cases f <;> decide +kernel, fun _ _ _ => rfl, fun _ _ _ => rfl⟩
  files := by rw [← filter_eq, ← filter_eq]; decide +kernel
  present r := by rw [← present_iff, ← present_iff]; cases r <;> decide +kernel
  results r _ t ht := by
    cases List.mem_singleton.1 ht
    exact ⟨by cases r <;> decide +kernel, fun _ _ _ => rfl, fun _ _ _ => rfl⟩

theorem calls : getobcs Toy.geod exNoFiles 10 exXe (fun _ => large.runDir ExTiles.pf) (exObArgs 1 fun _ => .missing) =
    (getobcs Toy.geod exNoFiles 10 exXe (fun _ => small.runDir ExTiles.pf) (exObArgs 1 fun _ => .missing) : Act (Disk Toy) Unit) :=
  C151_input_files _ _ _ _ ExTiles.pf (fun _ => small) (fun _ => large) _ _ rfl [(3, [])] (by decide) (by rw [← filter_eq]; decide +kernel) same

set_option maxRecDepth 40000 in
/-- The call returns and writes a file. -/
example : ((exShow (getobcs Toy.geod exNoFiles 10 exXe (fun _ => large.runDir ExTiles.pf) (exObArgs 1 fun _ => .missing) exDisk) ["run_obcs/OBWt"]).map
    fun l => l.map Option.isSome) = some [true] := by rw [calls]; decide +kernel

example : Spec.stepName "T".toList 3 = "T.0000000003".toList := by decide +kernel

end ExObcsFiles

end SG
