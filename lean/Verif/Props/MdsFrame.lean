import Verif.Props.MdsBracket
/-! # C146: which files `rdmds` and `mds2mitgrid` depend on -/

set_option linter.unusedSectionVars false

namespace SG
variable {F : Type}

namespace Spec

/-- The name belongs to the field `base`: it is `base` followed by a dot and anything. -/
def FileOf (base n : Text) : Prop := base ++ ['.'] <+: n

instance (base n : Text) : Decidable (FileOf base n) := by unfold FileOf; infer_instance

/-- Both directories have the same files of the field, listed in the same order, with the same contents. -/
structure SameFiles (d d' : MdsDir) (base : Text) : Prop where
  names : (d.names.filter fun n => FileOf base n) = d'.names.filter fun n => FileOf base n
  text : ∀ n ∈ d.names, FileOf base n → d.text n = d'.text n
  data : ∀ n ∈ d.names, FileOf base n → d.data n = d'.data n

/-- The directory without the files of a field. -/
def without (d : MdsDir) (base : Text) : MdsDir := { d with names := d.names.filter fun n => ¬ FileOf base n }

end Spec

theorem filter_filter_of {α : Type} {p q : α → Bool} (h : ∀ a, p a = true → q a = true) (l : List α) : (l.filter q).filter p = l.filter p := by
  rw [List.filter_filter]
  apply List.filter_congr
  intro a _
  cases hp : p a with
  | false => rfl
  | true => rw [h a hp]; rfl

theorem sameFiles_mem {d d' : MdsDir} {base n : Text} (h : Spec.SameFiles d d' base) (hn : Spec.FileOf base n) : n ∈ d.names ↔ n ∈ d'.names := by
  have : n ∈ (d.names.filter fun n => Spec.FileOf base n) ↔ n ∈ d'.names.filter fun n => Spec.FileOf base n := by rw [h.names]
  simpa [List.mem_filter, hn] using this

theorem filter_same {d d' : MdsDir} {base : Text} (h : Spec.SameFiles d d' base) {p : Text → Bool} (hp : ∀ n, p n = true → Spec.FileOf base n) :
    d.names.filter p = d'.names.filter p := by
  have hp' : ∀ n, p n = true → decide (Spec.FileOf base n) = true := fun n h => decide_eq_true (hp n h)
  rw [← filter_filter_of hp' d.names, ← filter_filter_of hp' d'.names, h.names]

theorem tile_belongs {base t n : Text} (ht : t = [] ∨ ∃ u, t = '.' :: u) (h : ((base ++ t).isPrefixOf n && isTileSuffix (n.drop (base ++ t).length)) = true) :
    Spec.FileOf base n := by
  obtain ⟨a, b, c, d, e, f, -, h⟩ := tileName_iff.1 h
  rcases ht with rfl | ⟨u, rfl⟩
  · exact ⟨[a, b, c, '.', d, e, f, '.', 'm', 'e', 't', 'a'], by rw [h]; simp⟩
  · exact ⟨u ++ ['.', a, b, c, '.', d, e, f, '.', 'm', 'e', 't', 'a'], by rw [h]; simp⟩

theorem metafiles_same {d d' : MdsDir} {base t : Text} (h : Spec.SameFiles d d' base) (ht : t = [] ∨ ∃ u, t = '.' :: u) :
    d.metafiles (base ++ t) = d'.metafiles (base ++ t) := by
  have hm : Spec.FileOf base (base ++ t ++ ".meta".toList) := by
    rcases ht with rfl | ⟨u, rfl⟩
    · exact ⟨['m', 'e', 't', 'a'], by simp⟩
    · exact ⟨u ++ ['.', 'm', 'e', 't', 'a'], by simp⟩
  unfold MdsDir.metafiles
  rw [filter_same h (fun n hn => tile_belongs ht hn)]
  by_cases hx : base ++ t ++ ".meta".toList ∈ d.names
  · rw [if_pos hx, if_pos ((sameFiles_mem h hm).1 hx)]
  · rw [if_neg hx, if_neg (fun hy => hx ((sameFiles_mem h hm).2 hy))]

theorem found_belongs {d : MdsDir} {base t n : Text} (ht : t = [] ∨ ∃ u, t = '.' :: u) (h : n ∈ d.metafiles (base ++ t)) :
    n ∈ d.names ∧ ∃ stem, n = stem ++ "meta".toList ∧ Spec.FileOf base (stem ++ "data".toList) ∧ Spec.FileOf base n := by
  obtain ⟨h1, h2 | ⟨-, h2⟩⟩ := mem_metafiles.1 h
  · obtain ⟨a, b, c, d, e, f, -, h2⟩ := h2
    refine ⟨h1, base ++ t ++ ['.', a, b, c, '.', d, e, f, '.'], by rw [h2]; simp, ?_⟩
    rcases ht with rfl | ⟨u, rfl⟩
    · exact ⟨⟨[a, b, c, '.', d, e, f, '.', 'd', 'a', 't', 'a'], by simp⟩, ⟨[a, b, c, '.', d, e, f, '.', 'm', 'e', 't', 'a'], by rw [h2]; simp⟩⟩
    · exact ⟨⟨u ++ ['.', a, b, c, '.', d, e, f, '.', 'd', 'a', 't', 'a'], by simp⟩, ⟨u ++ ['.', a, b, c, '.', d, e, f, '.', 'm', 'e', 't', 'a'], by rw [h2]; simp⟩⟩
  · refine ⟨h1, base ++ t ++ ['.'], by rw [h2]; simp, ?_⟩
    rcases ht with rfl | ⟨u, rfl⟩
    · exact ⟨⟨['d', 'a', 't', 'a'], by simp⟩, ⟨['m', 'e', 't', 'a'], by rw [h2]; simp⟩⟩
    · exact ⟨⟨u ++ ['.', 'd', 'a', 't', 'a'], by simp⟩, ⟨u ++ ['.', 'm', 'e', 't', 'a'], by rw [h2]; simp⟩⟩

theorem itrsWith_same {d d' : MdsDir} {base suf : Text} (h : Spec.SameFiles d d' base) : d.itrsWith base suf = d'.itrsWith base suf := by
  have key : ∀ l : List Text, MdsDir.itrsWith ⟨l, d.text, d.data⟩ base suf = MdsDir.itrsWith ⟨l.filter fun n => Spec.FileOf base n, d.text, d.data⟩ base suf := by
    intro l
    unfold MdsDir.itrsWith
    dsimp only
    rw [List.filterMap_filter]
    congr 1
    funext n
    by_cases hb : Spec.FileOf base n
    · rw [if_pos (decide_eq_true hb)]
    · rw [if_neg (c := decide (Spec.FileOf base n) = true) (by rw [decide_eq_true_eq]; exact hb), if_neg]
      intro hh
      rw [Bool.and_eq_true, Bool.and_eq_true, decide_eq_true_eq] at hh
      obtain ⟨r, rfl⟩ := List.isPrefixOf_iff_prefix.1 hh.1
      rw [List.drop_left] at hh
      cases r with
      | nil => cases hh.2.1
      | cons x r =>
        have : x = '.' := by have := hh.2.1; simpa using this
        exact hb ⟨r, by rw [this]; simp⟩
  have e1 : d.itrsWith base suf = MdsDir.itrsWith ⟨d.names, d.text, d.data⟩ base suf := rfl
  have e2 : d'.itrsWith base suf = MdsDir.itrsWith ⟨d'.names, d.text, d.data⟩ base suf := rfl
  rw [e1, e2, key d.names, key d'.names, h.names]

section
variable [PyFloat F] [F64 F] [F32 F]

/-- **C146** (own files only): `rdmds('base', ...)` depends on the files `base.*` only, for all arguments. -/
theorem C146_own_files_only (pf : Text → Py F) (d d' : MdsDir) (base : Text) (args : RdArgs F) (h : Spec.SameFiles d d' base) :
    rdmds pf d base args = rdmds pf d' base args := by
  have hscan : d.scan base = d'.scan base := by
    unfold MdsDir.scan
    rw [itrsWith_same h, itrsWith_same h]
  have hit : itrsOf d base args.itrs = itrsOf d' base args.itrs := by
    cases args.itrs <;> simp only [itrsOf, hscan]
  have htile : ∀ t, (t = [] ∨ ∃ u, t = '.' :: u) → ∀ n ∈ d.metafiles (base ++ t), ∀ nit iit st,
      tileStep pf d args nit iit st n = tileStep pf d' args nit iit st n := by
    intro t ht n hn nit iit st
    obtain ⟨hn, stem, rfl, hd, hb⟩ := found_belongs ht hn
    have e1 : d.openText (stem ++ "meta".toList) = d'.openText (stem ++ "meta".toList) := by
      unfold MdsDir.openText
      rw [if_pos hn, if_pos ((sameFiles_mem h hb).1 hn), h.text _ hn hb]
    have e2 : d.openData (stem ++ "data".toList) = d'.openData (stem ++ "data".toList) := by
      unfold MdsDir.openData
      by_cases hx : stem ++ "data".toList ∈ d.names
      · rw [if_pos hx, if_pos ((sameFiles_mem h hd).1 hx), h.data _ hx hd]
      · rw [if_neg hx, if_neg (fun hy => hx ((sameFiles_mem h hd).2 hy))]
    have hdn : (stem ++ "meta".toList).take ((stem ++ "meta".toList).length - 4) ++ "data".toList = stem ++ "data".toList := by
      rw [show (stem ++ "meta".toList).length - 4 = stem.length by rw [List.length_append]; simp, List.take_left]
    unfold tileStep
    rw [e1, hdn]
    dsimp only
    rw [e2]
  have hfold : ∀ t, (t = [] ∨ ∃ u, t = '.' :: u) → ∀ nit i st,
      (match d.metafiles (base ++ t) with | [] => (.error .ioError : Py (Option (RdState F))) | files => files.foldlM (tileStep pf d args nit i) st) =
      (match d'.metafiles (base ++ t) with | [] => .error .ioError | files => files.foldlM (tileStep pf d' args nit i) st) := by
    intro t ht nit i st
    have ht' := htile t ht
    rw [← metafiles_same h ht]
    generalize d.metafiles (base ++ t) = l at ht'
    cases l with
    | nil => rfl
    | cons a l =>
      have := foldlM_match (f := tileStep pf d args nit i) (g := tileStep pf d' args nit i) id id (a :: l) (fun e he s => ht' e he nit i s) st
      rw [List.map_id] at this
      exact this
  have hstep : ∀ nit, itrStep pf d base args nit = itrStep pf d' base args nit := by
    intro nit
    funext st x
    obtain ⟨it, i⟩ := x
    cases it with
    | none =>
      have := hfold [] (.inl rfl) nit i st
      rw [List.append_nil] at this
      exact this
    | some k => exact hfold (itrText k) (.inr ⟨_, rfl⟩) nit i st
  unfold rdmds
  dsimp only
  rw [hit, hstep]

/-! ## `mds2mitgrid` -/

theorem fields_apart {f g : Field} (h : f ≠ g) (n : Text) (h1 : Spec.FileOf f.text n) (h2 : Spec.FileOf g.text n) : False := by
  have key : ∀ f g : Field, f ≠ g → ¬ f.text ++ ['.'] <+: g.text ++ ['.'] := by
    intro f g
    cases f <;> cases g <;> first | exact fun h => absurd rfl h | (intro _; decide +kernel)
  rcases List.prefix_or_prefix_of_prefix h1 h2 with h3 | h3
  · exact key f g h h3
  · exact key g f (Ne.symm h) h3

theorem without_same (d : MdsDir) {f g : Field} (h : f ≠ g) : Spec.SameFiles d (Spec.without d f.text) g.text where
  names := by
    unfold Spec.without
    dsimp only
    rw [List.filter_filter]
    apply List.filter_congr
    intro n _
    by_cases hg : Spec.FileOf g.text n
    · have hf : ¬ Spec.FileOf f.text n := fun hf => fields_apart h n hf hg
      simp [hg, hf]
    · simp [hg]
  text _ _ _ := rfl
  data _ _ _ := rfl

theorem without_none (d : MdsDir) (base : Text) : (Spec.without d base).metafiles base = [] := by
  rw [List.eq_nil_iff_forall_not_mem]
  intro n hn
  have := found_belongs (t := []) (.inl rfl) (by rw [List.append_nil]; exact hn)
  obtain ⟨h1, -, -, -, h2⟩ := this
  have h1 : n ∈ d.names.filter fun n => ¬ Spec.FileOf base n := h1
  rw [List.mem_filter, decide_eq_true_eq] at h1
  exact h1.2 h2

theorem without_error (pf : Text → Py F) (d : MdsDir) (base : Text) : rdmds pf (Spec.without d base) base { fill := Arith.zero } = .error .ioError := by
  unfold rdmds
  show ((match (Spec.without d base).metafiles base with | [] => _ | files => _ : Py _) >>= _ >>= _) = _
  rw [without_none]
  rfl

/-- **C146** (damaged files): if `rdmds` cannot read the files of a grid field, for whatever reason, `mds2mitgrid` returns what it returns without these files;
there is no error. -/
theorem C146_damaged_as_missing (pf : Text → Py F) (d : MdsDir) (f : Field) (e : PyErr) (he : rdmds pf d f.text { fill := Arith.zero } = .error e) :
    mds2mitgridDir pf d = mds2mitgridDir pf (Spec.without d f.text) := by
  unfold mds2mitgridDir
  congr 1
  funext s z
  unfold mdsFieldDir
  by_cases hf : f = z.1
  · rw [← hf, he, without_error]
  · rw [C146_own_files_only pf d _ z.1.text _ (without_same d hf)]

/-- **C146** (damaged files, result): the field is missing in the result. -/
theorem C146_damaged_field_missing (pf : Text → Py F) (d : MdsDir) (f : Field) (e : PyErr) (he : rdmds pf d f.text { fill := Arith.zero } = .error e)
    (g : Grid F) (ni nj : Nat) (h : mds2mitgridDir pf d = .ok (g, ni, nj)) : g f = .none_ := by
  have key : ∀ (l : List (Field × Nat × Nat)) (s t : Grid F × Nat × Nat), s.1 f = .none_ → l.foldlM (mdsFieldDir pf d) s = .ok t → t.1 f = .none_ := by
    intro l
    induction l with
    | nil =>
      intro s t hs h
      cases h
      exact hs
    | cons z l ih =>
      intro s t hs h
      rw [List.foldlM_cons] at h
      obtain ⟨u, h1, h2⟩ := bind_ok_inv h
      refine ih u t ?_ h2
      unfold mdsFieldDir at h1
      by_cases hf : f = z.1
      · rw [← hf, he] at h1
        cases h1
        exact hs
      · split at h1
        · cases h1
          exact hs
        · split at h1
          · cases h1
            show (if f = z.1 then _ else s.1 f) = _
            rw [if_neg hf]
            exact hs
          · cases h1
          · cases h1
          · cases h1
  exact key _ _ _ rfl h

end

/-! ## Cases -/

namespace ExFrame
open ExTiles

def text2 : Text := "dimList = [ 2, 1, 2, 2, 1, 2 ];\ndataprec = [ 'float64' ];\nnrecords = [ 1 ];\n".toList

/-- A run directory with four numbers of `YC`, and `XC` cut after three. -/
def run : MdsDir := ⟨["XC.meta".toList, "XC.data".toList, "YC.meta".toList, "YC.data".toList, "pickup.meta".toList], fun _ => text2,
  fun n => (List.range (if n = "XC.data".toList then 3 else 4)).flatMap fun k => itemBytes .f64 .big (⟨BitVec.ofNat 64 (k + 1)⟩ : Toy)⟩

theorem error_of_map {α : Type} {x : Py α} {e : PyErr} (h : (x.map fun _ => ()) = .error e) : x = .error e := by
  cases x with
  | error e' => injection h with h; rw [h]
  | ok a => cases h

theorem cut : rdmds ExTiles.pf run Field.XC.text { fill := Arith.zero } = (.error .valueError : Py (NdArr Toy)) :=
  error_of_map (by decide +kernel)

example : mds2mitgridDir ExTiles.pf run = mds2mitgridDir ExTiles.pf (Spec.without run "XC".toList) :=
  C146_damaged_as_missing ExTiles.pf run .XC _ cut

/-- No error, and the size is that of `YC`. -/
example : ((mds2mitgridDir ExTiles.pf run).map fun r => r.2) = .ok (2, 2) := by decide +kernel

example : (mds2mitgridDir ExTiles.pf run).map (fun r => (r.1 .XC matches .none_, r.1 .YC matches .arr _)) = .ok (true, true) := by decide +kernel

/-- The case of `C146_own_files_only`: other files added, changed or taken away. -/
example (args : RdArgs Toy) : rdmds ExTiles.pf run "YC".toList args =
    rdmds ExTiles.pf ⟨["YC.meta".toList, "XG.meta".toList, "YC.data".toList], fun n => if n = "XG.meta".toList then [] else text2, run.data⟩ "YC".toList args :=
  C146_own_files_only ExTiles.pf run _ "YC".toList args ⟨by decide +kernel,
    (by decide +kernel), fun _ _ _ => rfl⟩

end ExFrame

end SG
