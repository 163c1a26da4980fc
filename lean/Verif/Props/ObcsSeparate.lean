import Verif.Props.ObcsFailed
/-! # C150: the boundary files of a response do not depend on the results of the others -/

set_option linter.unusedSectionVars false

namespace SG
variable {F W : Type} [PyFloat F] [F64 F]

/-- Two directories with the same grid files, `T` files of the same names, and the same results of the response `r`. -/
structure Spec.SameResponse (r : Resp) (run run' : RunDir F) : Prop where
  grid : run'.grid = run.grid
  steps : run'.names.filter (fun n => decide (Spec.IsResult .T n)) = run.names.filter (fun n => decide (Spec.IsResult .T n))
  present : Spec.Present run'.names r ↔ Spec.Present run.names r
  read : ∀ t, run'.read (Spec.respName r) t = run.read (Spec.respName r) t

theorem afterwards_returns {xe : Xesmf F W} {run : RunDir F} {obs : Side → List Int × Bool} {ni nj : Nat} {dir : Text} {r : Kind → Regridder W} {k k' : Disk W}
    (h : afterwards xe run obs ni nj dir r k = some (k', .ok ())) :
    ∃ times, resultTimes run = .ok times ∧ responses xe r run obs ni nj times dir Resp.all k = some (k', .ok ()) := by
  unfold afterwards Act.bind Act.lift at h
  cases ht : resultTimes run with
  | error e => rw [ht] at h; cases h
  | ok times =>
    rw [ht] at h
    dsimp only at h
    refine ⟨times, rfl, ?_⟩
    cases times with
    | nil => cases h
    | cons t rest =>
      dsimp only at h
      cases hv : run.read Resp.T.name t with
      | error e => rw [hv] at h; cases h
      | ok v => rw [hv] at h; exact h

/-- **C150**: the boundary files of a response depend on the results of this response and on the names of the `T` files only: if two calls that differ in other results
return, they leave the same boundary files of this response, and the same weight files. -/
theorem C150_separate (geod : Geod F) (fs : Files F) (fuel : Nat) (xe : Xesmf F W) (runs runs' : Text → RunDir F) (a : ObcsArgs F) (pdir dir : Text)
    (hd : a.parentResultsdir = some pdir) (hod : Spec.OutDir a pdir dir) (r : Resp) (hs : Spec.SameResponse r (runs pdir) (runs' pdir)) (k k₁ k₂ : Disk W)
    (h₁ : getobcs geod fs fuel xe runs a k = some (k₁, .ok ())) (h₂ : getobcs geod fs fuel xe runs' a k = some (k₂, .ok ())) :
    (∀ s, k₁.out (Spec.inDir dir (Spec.obName s r)) = k₂.out (Spec.inDir dir (Spec.obName s r))) ∧ k₁.weights = k₂.weights := by
  rcases getobcs_parts geod fs fuel xe runs a with ⟨e, he⟩ | ⟨pdir₁, p₁, g₁, obs₁, hd₁, hp₁, hg₁, ho₁, hsplit₁⟩
  · rw [he] at h₁; cases h₁
  rcases getobcs_parts geod fs fuel xe runs' a with ⟨e, he⟩ | ⟨pdir₂, p₂, g₂, obs₂, hd₂, hp₂, hg₂, ho₂, hsplit₂⟩
  · rw [he] at h₂; cases h₂
  cases hd.symm.trans hd₁
  cases hd.symm.trans hd₂
  rw [parent_grid_same a hs.grid] at hp₂
  cases hp₁.symm.trans hp₂
  cases hg₁.symm.trans hg₂
  cases ho₁.symm.trans ho₂
  rw [hsplit₁] at h₁
  rw [hsplit₂] at h₂
  unfold Act.bind at h₁ h₂
  cases hr : regridders geod fs fuel xe (resultsDirOf a pdir) p₁ g₁ k with
  | none => rw [hr] at h₁; cases h₁
  | some x =>
    obtain ⟨k₀, x⟩ := x
    cases x with
    | error e => rw [hr] at h₁; cases h₁
    | ok w =>
      rw [hr] at h₁ h₂
      dsimp only at h₁ h₂
      obtain ⟨times, ht, h₁⟩ := afterwards_returns h₁
      obtain ⟨times', ht', h₂⟩ := afterwards_returns h₂
      rw [times_same hs.steps] at ht'
      cases ht.symm.trans ht'
      obtain ⟨w₁, a₁, b₁⟩ := responses_ok Resp.all (by decide) h₁
      obtain ⟨w₂, a₂, b₂⟩ := responses_ok Resp.all (by decide) h₂
      refine ⟨fun s => ?_, w₁.trans w₂.symm⟩
      rw [outDir_unique hod, ← inDir_eq, ← obName_eq]
      have hall : ∀ r : Resp, r ∈ Resp.all := by intro r; cases r <;> decide
      have hother : ∀ (l : List Text), ¬ Spec.Present l r → ∀ resp ∈ Resp.all, l.any (isResult resp.name) = true → ∀ s', (obs₁ s').2 = true →
          pathJoin (resultsDirOf a pdir) (obFileName s r) ≠ pathJoin (resultsDirOf a pdir) (obFileName s' resp) := by
        intro l hl resp _ hp s' _ e
        obtain ⟨-, rfl⟩ := obFileName_inj _ _ _ _ (pathJoin_inj _ _ _ e)
        exact hl ((present_iff _ _).1 hp)
      by_cases hp : Spec.Present (runs pdir).names r
      · by_cases ho : (obs₁ s).2 = true
        · obtain ⟨A, hA, hA'⟩ := a₁ r (hall r) ((present_iff _ _).2 hp)
          obtain ⟨B, hB, hB'⟩ := a₂ r (hall r) ((present_iff _ _).2 (hs.present.2 hp))
          rw [assemble_read hs.read, hA] at hB
          cases hB
          rw [hA' s ho, hB' s ho]
        · have hoff : ∀ resp ∈ Resp.all, ∀ s', (obs₁ s').2 = true →
              pathJoin (resultsDirOf a pdir) (obFileName s r) ≠ pathJoin (resultsDirOf a pdir) (obFileName s' resp) := by
            intro resp _ s' hs' e
            obtain ⟨rfl, -⟩ := obFileName_inj _ _ _ _ (pathJoin_inj _ _ _ e)
            exact ho hs'
          rw [b₁ _ fun x hx _ => hoff x hx, b₂ _ fun x hx _ => hoff x hx]
      · rw [b₁ _ (hother _ hp), b₂ _ (hother _ (fun h => hp (hs.present.1 h)))]

/-! ## Cases -/

namespace ExSeparate

/-- The directory of `exNames` without results of `U`, with other numbers in `T`, and with results of `S`. -/
def other : Text → RunDir Toy := fun _ =>
  { names := ["T.0000000012.data", "T.0000000003.data", "T.0000000003.meta", "S.0000000012.data", "V.0000000003.data"].map String.toList
    grid := fun _ => none
    read := fun r t => if r = "V".toList then .ok ⟨2, 1, some 2, fun _ _ d => .ofInt (100 * t + d)⟩ else .ok ⟨2, 1, none, fun _ _ d => .ofInt (7 * t + d)⟩ }

def withV : List String := exNames ++ ["V.0000000003.data"]

theorem same : Spec.SameResponse .V (exResults withV "run/".toList) (other "run/".toList) where
  grid := rfl
  steps := by rw [← filter_eq, ← filter_eq]; decide +kernel
  present := by rw [← present_iff, ← present_iff]; decide +kernel
  read _ := rfl

def call : Option (Disk Toy × Py Unit) := getobcs Toy.geod exNoFiles 10 exXe other (exObArgs 1 fun _ => .missing) exDisk

def fine (r : Option (Disk Toy × Py Unit)) : Bool :=
  match r with
  | some (_, .ok ()) => true
  | _ => false

theorem of_fine {r : Option (Disk Toy × Py Unit)} (h : fine r = true) : ∃ k', r = some (k', .ok ()) := by
  match r, h with
  | some (k', .ok ()), _ => exact ⟨k', rfl⟩

set_option maxRecDepth 40000 in
theorem fine_1 : fine (exCall 1 (fun _ => .missing) withV exDisk) = true := by decide +kernel

set_option maxRecDepth 40000 in
theorem fine_2 : fine call = true := by decide +kernel

example : ∃ k₁ k₂, exCall 1 (fun _ => .missing) withV exDisk = some (k₁, .ok ()) ∧ call = some (k₂, .ok ()) ∧
    ∀ s, k₁.out (Spec.inDir "run_obcs".toList (Spec.obName s .V)) = k₂.out (Spec.inDir "run_obcs".toList (Spec.obName s .V)) := by
  obtain ⟨k₁, h₁⟩ := of_fine fine_1
  obtain ⟨k₂, h₂⟩ := of_fine fine_2
  exact ⟨k₁, k₂, h₁, h₂, (C150_separate _ _ _ _ _ _ _ _ _ rfl (exOutDir 1 _) .V same _ _ _ h₁ h₂).1⟩

set_option maxRecDepth 40000 in
/-- The files of `V` are there, and those of `T` differ. -/
example : (exShow call ["run_obcs/OBWv"] = exShow (exCall 1 (fun _ => .missing) withV exDisk) ["run_obcs/OBWv"]) ∧
    (exShow call ["run_obcs/OBWt"] ≠ exShow (exCall 1 (fun _ => .missing) withV exDisk) ["run_obcs/OBWt"]) := by decide +kernel

end ExSeparate

end SG
