import Verif.Model.RunFiles
import Verif.Props.MdsData
import Verif.Props.MdsIters
import Verif.Props.ObcsOutput
import Verif.Props.Mds2Mitgrid
/-! # C83, C84: `wrmds` followed by `mds2mitgrid` and by `getobcs` -/

set_option linter.unusedSectionVars false
namespace SG
variable {F W : Type} [PyFloat F] [F64 F] [F32 F]

/-! ## Specification -/

namespace Spec

/-- An array of rank two or three written as one record. -/
structure Record (pf : Text → Py F) (fe : F → Text) (rnd : F → F) (c : WrCall F) : Prop where
  rank : c.arr.shape.length = 2 ∨ c.arr.shape.length = 3
  whole : c.args.ndims = none
  single : c.args.nrecords = none ∨ c.args.nrecords = some 1
  big : c.args.endian = .big
  labels : Labels pf fe rnd c.args

/-- Names of the grid files MITgcm writes. -/
def fieldName : Field → Text
  | .XC => ['X', 'C'] | .YC => ['Y', 'C'] | .XG => ['X', 'G'] | .YG => ['Y', 'G']
  | .DXF => ['D', 'X', 'F'] | .DYF => ['D', 'Y', 'F'] | .DXV => ['D', 'X', 'V'] | .DYU => ['D', 'Y', 'U']
  | .DXC => ['D', 'X', 'C'] | .DYC => ['D', 'Y', 'C'] | .DXG => ['D', 'X', 'G'] | .DYG => ['D', 'Y', 'G']
  | .RAC => ['R', 'A', 'C'] | .RAZ => ['R', 'A', 'Z'] | .RAW => ['R', 'A', 'W'] | .RAS => ['R', 'A', 'S']

end Spec

theorem fieldText_eq (f : Field) : Spec.fieldName f = f.text := by cases f <;> rfl

theorem Spec.Record.split {pf : Text → Py F} {fe : F → Text} {rnd : F → F} {c : WrCall F} (hc : Spec.Record pf fe rnd c) :
    Spec.Split c.args.ndims c.args.nrecords c.arr.shape [] c.arr.shape := by
  refine ⟨rfl, ?_, ?_⟩
  · rw [hc.whole]
    rcases hc.single with h | h <;> rw [h]
    · show c.arr.shape.length = min 3 c.arr.shape.length
      rcases hc.rank with h | h <;> omega
    · intro l m e hm
      cases l with
      | nil => exact absurd e.symm (by simpa using hm)
      | cons a l => cases e
  · intro r hr
    rcases hc.single with h | h <;> rw [h] at hr <;> cases hr
    rfl

/-! ## Directories that hold what was written -/

/-- The files of a `wrmds` call are in the directory. -/
structure Holds (d : MdsDir) (w : Written) : Prop where
  meta_in : w.base ++ ".meta".toList ∈ d.names
  data_in : w.base ++ ".data".toList ∈ d.names
  text : d.text (w.base ++ ".meta".toList) = w.text
  data : d.data (w.base ++ ".data".toList) = w.data

theorem Holds.write_eq {d : MdsDir} {w : Written} (h : Holds d w) : d.write w = d := by
  obtain ⟨ns, tx, dt⟩ := d
  unfold MdsDir.write
  dsimp only
  have h1 := h.meta_in
  have h2 := h.data_in
  have h3 := h.text
  have h4 := h.data
  dsimp only at h1 h2 h3 h4
  congr 1
  · have : [w.base ++ ".meta".toList, w.base ++ ".data".toList].filter (fun n => n ∉ ns) = [] := by
      rw [List.filter_eq_nil_iff]
      intro n hn
      simp only [List.mem_cons, List.not_mem_nil, or_false] at hn
      rcases hn with rfl | rfl
      · simpa using h1
      · simpa using h2
    rw [this, List.append_nil]
  · funext n
    by_cases e : n = w.base ++ ".meta".toList
    · rw [if_pos e, e, h3]
    · rw [if_neg e]
  · funext n
    by_cases e : n = w.base ++ ".data".toList
    · rw [if_pos e, e, h4]
    · rw [if_neg e]

theorem holds_write (d : MdsDir) (w : Written) : Holds (d.write w) w where
  meta_in := write_mem.2 (.inr (.inl rfl))
  data_in := write_mem.2 (.inr (.inr rfl))
  text := if_pos rfl
  data := if_pos rfl

theorem data_ne_meta {a b : Text} (h : a ++ ".data".toList = b ++ ".meta".toList) : False := by
  have := (List.append_inj' h rfl).2
  revert this
  decide

theorem data_not_tile {a b : Text} (h : Spec.TileName a (b ++ ".data".toList)) : False := by
  obtain ⟨x, y, z, u, v, w, -, e⟩ := h
  exact data_ne_meta (b := a ++ ['.', x, y, z, '.', u, v, w]) (by rw [e]; simp)

theorem suffix_inj {a b : Text} (s : Text) (h : a ++ s = b ++ s) : a = b := List.append_cancel_right h

theorem Holds.other {d : MdsDir} {w w' : Written} (h : Holds d w) (hne : w'.base ≠ w.base) : Holds (d.write w') w where
  meta_in := write_mem.2 (.inl h.meta_in)
  data_in := write_mem.2 (.inl h.data_in)
  text := by
    show (if _ then _ else _) = _
    rw [if_neg (fun e => hne (suffix_inj _ e).symm), h.text]
  data := by
    show (if _ then _ else _) = _
    rw [if_neg (fun e => hne (suffix_inj _ e).symm), h.data]

/-- `rdmds` in a directory that holds the files. -/
theorem rdmds_holds [LawfulF64 F] {pf : Text → Py F} {fe : F → Text} {rnd : F → F} {c : WrCall F} (hc : Spec.Record pf fe rnd c)
    {w : Written} (hw : wrmds fe c.base c.arr c.args = .ok w) {d : MdsDir} (hd : Holds d w)
    (hstale : ∀ n ∈ d.names, ¬ Spec.TileName (nameOf c.base c.args.itr) n) :
    ∃ b : NdArr F, rdmds pf d c.base { itrs := Spec.itrsFor c.args.itr, fill := Arith.zero } = .ok b ∧ b.shape = c.arr.shape ∧
      ∀ idx, InShape b.shape idx → b.get idx = Spec.rounded c.args.prec (c.arr.get idx) := by
  obtain ⟨w', b, e1, e2, e3, e4⟩ := C59_data_round_trip pf fe rnd d c.base c.arr c.args Arith.zero [] c.arr.shape hc.split
    (by rcases hc.rank with h | h <;> omega) (by simp) hc.labels hstale
  rw [hw] at e1
  injection e1 with e1
  subst e1
  rw [hd.write_eq, hc.big] at e2
  have e3' : b.shape = c.arr.shape := e3
  refine ⟨b, e2, e3', fun idx hidx => ?_⟩
  have g1 := NdArr.toList_get b hidx
  rw [e3'] at hidx
  have g2 := NdArr.toList_get c.arr hidx
  rw [e4, List.getElem?_map, e3', g2] at g1
  exact (Option.some.inj g1).symm

theorem wrmds_base {fe : F → Text} {fbase : Text} {arr : NdArr F} {args : WrArgs F} {w : Written} (hw : wrmds fe fbase arr args = .ok w) :
    w.base = nameOf fbase args.itr := by
  unfold wrmds at hw
  obtain ⟨nd, _, hw⟩ := bind_ok_inv hw
  dsimp only at hw
  have key : ∀ {c : Prop} [Decidable c] {x : Written} , (if c then (do throw PyErr.valueError; pure x) else (pure x : Py Written)) = .ok w → w = x := by
    intro c _ x h
    by_cases hc : c
    · rw [if_pos hc] at h; cases h
    · rw [if_neg hc] at h; injection h with h; exact h.symm
  cases hn : args.nrecords with
  | none =>
    rw [hn] at hw
    dsimp only at hw
    rw [key hw]
    cases args.itr <;> rfl
  | some r =>
    rw [hn] at hw
    dsimp only at hw
    generalize prodL (if nd = 0 then [] else arr.shape.take (arr.shape.length - nd)) = q at hw
    by_cases hq : r ≠ q
    · rw [if_pos hq] at hw; cases hw
    · rw [if_neg hq] at hw
      have := key hw
      rw [this]
      cases args.itr <;> rfl


/-! ## A series of calls -/

/-- Base name of the files of a call. -/
def WrCall.name (c : WrCall F) : Text := nameOf c.base c.args.itr

theorem record_written {pf : Text → Py F} {fe : F → Text} {rnd : F → F} {c : WrCall F} (hc : Spec.Record pf fe rnd c) :
    ∃ w, wrmds fe c.base c.arr c.args = .ok w := by
  obtain ⟨n, hn⟩ := wrmds_split fe c.base hc.split (by
    intro e
    rcases hc.rank with h | h <;> rw [e] at h <;> cases h)
  exact ⟨_, hn⟩

theorem writeAll_cons {fe : F → Text} {d : MdsDir} {c : WrCall F} {cs : List (WrCall F)} {w : Written}
    (hw : wrmds fe c.base c.arr c.args = .ok w) : d.writeAll fe (c :: cs) = (d.write w).writeAll fe cs := by
  show (do let d ← (do return d.write (← wrmds fe c.base c.arr c.args)); _) = _
  rw [hw]
  rfl

theorem writeAll_ok {pf : Text → Py F} {fe : F → Text} {rnd : F → F} : ∀ (cs : List (WrCall F)) (d : MdsDir),
    (∀ c ∈ cs, Spec.Record pf fe rnd c) → ∃ d', d.writeAll fe cs = .ok d'
  | [], d, _ => ⟨d, rfl⟩
  | c :: cs, d, h => by
    obtain ⟨w, hw⟩ := record_written (h c (by simp))
    rw [writeAll_cons hw]
    exact writeAll_ok cs _ (fun c hc => h c (by simp [hc]))

theorem writeAll_names {pf : Text → Py F} {fe : F → Text} {rnd : F → F} : ∀ (cs : List (WrCall F)) (d d' : MdsDir),
    (∀ c ∈ cs, Spec.Record pf fe rnd c) → d.writeAll fe cs = .ok d' → ∀ n, n ∈ d'.names ↔
      n ∈ d.names ∨ ∃ c ∈ cs, n = c.name ++ ".meta".toList ∨ n = c.name ++ ".data".toList
  | [], d, d', _, e, n => by
    cases e
    simp
  | c :: cs, d, d', h, e, n => by
    obtain ⟨w, hw⟩ := record_written (h c (by simp))
    rw [writeAll_cons hw] at e
    rw [writeAll_names cs _ _ (fun c hc => h c (by simp [hc])) e n, write_mem, wrmds_base hw]
    clear h
    constructor
    · rintro ((h | h) | ⟨c', h', h⟩)
      · exact .inl h
      · exact .inr ⟨c, by simp, h⟩
      · exact .inr ⟨c', by simp [h'], h⟩
    · rintro (h | ⟨c', h', h⟩)
      · exact .inl (.inl h)
      · rcases List.mem_cons.1 h' with rfl | h'
        · exact .inl (.inr h)
        · exact .inr ⟨c', h', h⟩

theorem writeAll_keeps {pf : Text → Py F} {fe : F → Text} {rnd : F → F} {w : Written} : ∀ (cs : List (WrCall F)) (d d' : MdsDir),
    (∀ c ∈ cs, Spec.Record pf fe rnd c) → d.writeAll fe cs = .ok d' → (∀ c ∈ cs, c.name ≠ w.base) → Holds d w → Holds d' w
  | [], d, d', _, e, _, hd => by cases e; exact hd
  | c :: cs, d, d', h, e, hne, hd => by
    obtain ⟨w', hw⟩ := record_written (h c (by simp))
    rw [writeAll_cons hw] at e
    exact writeAll_keeps cs _ _ (fun c hc => h c (by simp [hc])) e (fun c hc => hne c (by simp [hc]))
      (hd.other (by rw [wrmds_base hw]; exact hne c (by simp)))

theorem writeAll_holds {pf : Text → Py F} {fe : F → Text} {rnd : F → F} : ∀ (cs : List (WrCall F)) (d d' : MdsDir),
    (∀ c ∈ cs, Spec.Record pf fe rnd c) → d.writeAll fe cs = .ok d' → cs.Pairwise (fun a b => a.name ≠ b.name) →
    ∀ c ∈ cs, ∃ w, wrmds fe c.base c.arr c.args = .ok w ∧ Holds d' w
  | c :: cs, d, d', h, e, hp, c', hc' => by
    obtain ⟨w, hw⟩ := record_written (h c (by simp))
    rw [writeAll_cons hw] at e
    obtain ⟨h1, h2⟩ := List.pairwise_cons.1 hp
    rcases List.mem_cons.1 hc' with rfl | hc'
    · refine ⟨w, hw, writeAll_keeps cs _ _ (fun c hc => h c (by simp [hc])) e (fun c hc => ?_) (holds_write d w)⟩
      rw [wrmds_base hw]
      exact (h1 c hc).symm
    · exact writeAll_holds cs _ _ (fun c hc => h c (by simp [hc])) e h2 c' hc'

/-- What `rdmds` returns for each of the arrays written. -/
theorem rdmds_writeAll [LawfulF64 F] {pf : Text → Py F} {fe : F → Text} {rnd : F → F} {cs : List (WrCall F)} {d d' : MdsDir}
    (h : ∀ c ∈ cs, Spec.Record pf fe rnd c) (e : d.writeAll fe cs = .ok d') (hp : cs.Pairwise (fun a b => a.name ≠ b.name))
    {c : WrCall F} (hc : c ∈ cs) (hold : ∀ n ∈ d.names, ¬ Spec.TileName c.name n)
    (hnew : ∀ c' ∈ cs, ¬ Spec.TileName c.name (c'.name ++ ".meta".toList)) :
    ∃ b : NdArr F, rdmds pf d' c.base { itrs := Spec.itrsFor c.args.itr, fill := Arith.zero } = .ok b ∧ b.shape = c.arr.shape ∧
      ∀ idx, InShape b.shape idx → b.get idx = Spec.rounded c.args.prec (c.arr.get idx) := by
  obtain ⟨w, hw, hd⟩ := writeAll_holds cs d d' h e hp c hc
  refine rdmds_holds (h c hc) hw hd fun n hn ht => ?_
  rcases (writeAll_names cs d d' h e n).1 hn with hn | ⟨c', hc', rfl | rfl⟩
  · exact hold n hn ht
  · exact hnew c' hc' ht
  · exact data_not_tile ht

/-- Nothing to read. -/
theorem rdmds_missing {pf : Text → Py F} {d : MdsDir} {fname : Text} {itr : Option Nat} (h : ∀ n ∈ d.names, ¬ Spec.TileName (nameOf fname itr) n)
    (hm : nameOf fname itr ++ ".meta".toList ∉ d.names) :
    rdmds pf d fname { itrs := Spec.itrsFor itr, fill := (Arith.zero : F) } = .error .ioError := by
  have hf : d.metafiles (nameOf fname itr) = [] := by
    unfold MdsDir.metafiles
    have : d.names.filter (fun n => (nameOf fname itr).isPrefixOf n && isTileSuffix (n.drop (nameOf fname itr).length)) = [] := by
      rw [List.filter_eq_nil_iff]
      intro n hn ht
      exact h n hn (tileName_iff.1 ht)
    rw [this]
    exact if_neg hm
  cases itr with
  | none =>
    have hf : d.metafiles fname = [] := hf
    unfold rdmds
    show (do let x ← ((match d.metafiles fname with
      | [] => Except.error PyErr.ioError
      | files => files.foldlM _ none) >>= fun s => (pure s : Py (Option (RdState F)))); _) = _
    rw [hf]
    rfl
  | some t =>
    have hf : d.metafiles (fname ++ itrText t) = [] := hf
    unfold rdmds
    show (do let x ← ((match d.metafiles (fname ++ itrText t) with
      | [] => Except.error PyErr.ioError
      | files => files.foldlM _ none) >>= fun s => (pure s : Py (Option (RdState F)))); _) = _
    rw [hf]
    rfl

/-! ## C83 -/

theorem mdsDir_fold {pf : Text → Py F} {d : MdsDir} {rd : Field → Option (Mat F)}
    (h : ∀ f : Field, (∃ e, rdmds pf d f.text { fill := Arith.zero } = .error e ∧ rd f = none) ∨
      ∃ a r c, rdmds pf d f.text { fill := Arith.zero } = .ok a ∧ a.shape = [r, c] ∧ rd f = some ⟨r, c, fun i j => a.get [i, j]⟩) :
    ∀ (xs : List (Field × Nat × Nat)) (s : Grid F × Nat × Nat), xs.foldlM (mdsFieldDir pf d) s = .ok (xs.foldl (mdsField rd) s)
  | [], s => rfl
  | x :: xs, s => by
    rw [List.foldlM_cons, List.foldl_cons]
    have : mdsFieldDir pf d s x = .ok (mdsField rd s x) := by
      unfold mdsFieldDir
      rcases h x.1 with ⟨e, h1, h2⟩ | ⟨a, r, c, h1, h2, h3⟩
      · rw [h1]
        unfold mdsField
        rw [h2]
      · rw [h1]
        dsimp only
        rw [h2]
        dsimp only
        unfold mdsField
        rw [h3]
    rw [this]
    exact mdsDir_fold h xs _

theorem fieldText_inj {f g : Field} (h : f.text = g.text) : f = g := by
  revert h
  cases f <;> cases g <;> decide

theorem fieldText_dot (f : Field) : '.' ∉ f.text := by cases f <;> decide

/-- A grid field as it is to be written. -/
structure FieldFile (F : Type) where
  field : Field
  arr : NdArr F
  args : WrArgs F

/-- The `wrmds` call for a field: no iteration number. -/
def Spec.fieldCall (x : FieldFile F) : WrCall F := ⟨Spec.fieldName x.field, x.arr, { x.args with itr := none }⟩

/-- **C83**.  Grid fields written with `wrmds` into a directory without grid files are what `mds2mitgrid` returns: transposed, rounded to the
precision written, in the leading block of an array with the extra row and column of the format, which are zero.  Other fields are `None`; the size
is that of the first field in file order. -/
theorem C83_grid_files [LawfulF64 F] (pf : Text → Py F) (fe : F → Text) (rnd : F → F) (d : MdsDir) (xs : List (FieldFile F))
    (hrec : ∀ x ∈ xs, Spec.Record pf fe rnd (Spec.fieldCall x) ∧ x.arr.shape.length = 2)
    (hdist : xs.Pairwise fun a b => a.field ≠ b.field)
    (hold : ∀ f : Field, Spec.fieldName f ++ ".meta".toList ∉ d.names ∧ ∀ n ∈ d.names, ¬ Spec.TileName (Spec.fieldName f) n) :
    ∃ d' g ni nj, d.writeAll fe (xs.map Spec.fieldCall) = .ok d' ∧ mds2mitgridDir pf d' = .ok (g, ni, nj) ∧
      (∀ f, (∀ x ∈ xs, x.field ≠ f) → g f = .none_) ∧
      (∀ x ∈ xs, ∀ c r, x.arr.shape = [r, c] → ∃ a, g x.field = .arr a ∧
        a.rows = Spec.nrows x.field c ∧ a.cols = Spec.ncols x.field r ∧
        (∀ i j, i < c → j < r → a.get i j = Spec.rounded x.args.prec (x.arr.get [j, i])) ∧
        (∀ i j, c ≤ i ∨ r ≤ j → a.get i j = Arith.zero)) ∧
      (∀ x ∈ xs, ∀ c r, x.arr.shape = [r, c] → (c ≠ 0 ∨ r ≠ 0) → (∀ y ∈ xs, Spec.slot x.field ≤ Spec.slot y.field) → ni = c ∧ nj = r) ∧
      (xs = [] → ni = 0 ∧ nj = 0) := by
  simp only [fieldText_eq] at hold
  have hcall : ∀ x : FieldFile F, Spec.fieldCall x = ⟨x.field.text, x.arr, { x.args with itr := none }⟩ := fun x => by
    rw [← fieldText_eq]; rfl
  have hname : ∀ x : FieldFile F, (Spec.fieldCall x).name = x.field.text := fun x => by rw [hcall]; rfl
  have hrec' : ∀ c ∈ xs.map Spec.fieldCall, Spec.Record pf fe rnd c := by
    intro c hc
    obtain ⟨x, hx, rfl⟩ := List.mem_map.1 hc
    exact (hrec x hx).1
  obtain ⟨d', hd'⟩ := writeAll_ok (xs.map Spec.fieldCall) d hrec'
  have hp : (xs.map Spec.fieldCall).Pairwise (fun a b => a.name ≠ b.name) := by
    rw [List.pairwise_map]
    exact hdist.imp fun h e => h (fieldText_inj (by rw [← hname, ← hname]; exact e))
  have hnew : ∀ f : Field, ∀ c' ∈ xs.map Spec.fieldCall, ¬ Spec.TileName f.text (c'.name ++ ".meta".toList) := by
    rintro f c' hc' ⟨a, b, x, y, z, u, -, e⟩
    obtain ⟨v, hv, rfl⟩ := List.mem_map.1 hc'
    have e1 : (Spec.fieldCall v).name = f.text ++ ['.', a, b, x, '.', y, z, u] := by
      apply suffix_inj ".meta".toList
      rw [e]; simp
    have : '.' ∈ v.field.text := by
      rw [← hname, e1]; simp
    exact fieldText_dot _ this
  have hmissing : ∀ f, (∀ x ∈ xs, x.field ≠ f) → rdmds pf d' f.text { fill := (Arith.zero : F) } = .error .ioError := by
    intro f hf
    refine rdmds_missing (itr := none) (fun n hn ht => ?_) (fun hm => ?_)
    · rcases (writeAll_names _ d d' hrec' hd' n).1 hn with hn | ⟨c', hc', rfl | rfl⟩
      · exact (hold f).2 n hn ht
      · exact hnew f c' hc' ht
      · exact data_not_tile ht
    · rcases (writeAll_names _ d d' hrec' hd' _).1 hm with hm | ⟨c', hc', e | e⟩
      · exact (hold f).1 hm
      · obtain ⟨v, hv, rfl⟩ := List.mem_map.1 hc'
        exact hf v hv (fieldText_inj (by rw [← hname]; exact (suffix_inj _ e).symm))
      · exact data_ne_meta e.symm
  have hread : ∀ x ∈ xs, ∃ b : NdArr F, rdmds pf d' x.field.text { fill := (Arith.zero : F) } = .ok b ∧ b.shape = x.arr.shape ∧
      ∀ idx, InShape b.shape idx → b.get idx = Spec.rounded x.args.prec (x.arr.get idx) := fun x hx =>
    rdmds_writeAll hrec' hd' hp (List.mem_map.2 ⟨x, hx, hcall x⟩) ((hold x.field).2) (hnew x.field)
  have hshape : ∀ x ∈ xs, ∃ r c, x.arr.shape = [r, c] := by
    intro x hx
    match hs : x.arr.shape, (hrec x hx).2 with
    | [r, c], _ => exact ⟨r, c, rfl⟩
  let rd : Field → Option (Mat F) := (d'.runDir pf).grid
  have hsome : ∀ x ∈ xs, ∀ r c, x.arr.shape = [r, c] → ∃ b : NdArr F, rdmds pf d' x.field.text { fill := (Arith.zero : F) } = .ok b ∧
      b.shape = [r, c] ∧ rd x.field = some ⟨r, c, fun i j => b.get [i, j]⟩ ∧
      ∀ i j, i < r → j < c → b.get [i, j] = Spec.rounded x.args.prec (x.arr.get [i, j]) := by
    intro x hx r c hs
    obtain ⟨b, h1, h2, h3⟩ := hread x hx
    rw [hs] at h2
    refine ⟨b, h1, h2, ?_, fun i j hi hj => h3 _ (by rw [h2]; exact ⟨hi, hj, trivial⟩)⟩
    show (match rdmds pf d' x.field.text { fill := (Arith.zero : F) } with
      | .error _ => none
      | .ok a => match a.shape with
        | [r, c] => some (⟨r, c, fun i j => a.get [i, j]⟩ : Mat F)
        | _ => none) = _
    rw [h1]
    dsimp only
    rw [h2]
  have hnone : ∀ f, (∀ x ∈ xs, x.field ≠ f) → rd f = none := by
    intro f hf
    show (match rdmds pf d' f.text { fill := (Arith.zero : F) } with
      | .error _ => none
      | .ok a => match a.shape with
        | [r, c] => some (⟨r, c, fun i j => a.get [i, j]⟩ : Mat F)
        | _ => none) = _
    rw [hmissing f hf]
  have hfold := mdsDir_fold (pf := pf) (d := d') (rd := rd) (fun f => by
    by_cases hf : ∃ x ∈ xs, x.field = f
    · obtain ⟨x, hx, rfl⟩ := hf
      obtain ⟨r, c, hs⟩ := hshape x hx
      obtain ⟨b, h1, h2, h3, -⟩ := hsome x hx r c hs
      exact .inr ⟨b, r, c, h1, h2, h3⟩
    · have hf : ∀ x ∈ xs, x.field ≠ f := fun x hx e => hf ⟨x, hx, e⟩
      exact .inl ⟨_, hmissing f hf, hnone f hf⟩) Mgf.zipped (Grid.allNone, 0, 0)
  refine ⟨d', (mds2mitgrid rd).1, (mds2mitgrid rd).2.1, (mds2mitgrid rd).2.2, hd', hfold, fun f hf => ?_, fun x hx c r hs => ?_,
    fun x hx c r hs hne hfirst => ?_, fun hnil => ?_⟩
  · exact (C50_padding rd f).1 (hnone f hf)
  · obtain ⟨b, h1, h2, h3, h4⟩ := hsome x hx r c hs
    obtain ⟨a, g1, g2, g3, g4, g5⟩ := (C50_padding rd x.field).2 _ h3
    exact ⟨a, g1, g2, g3, fun i j hi hj => (g4 i j hi hj).trans (h4 j i hj hi), g5⟩
  · obtain ⟨b, h1, h2, h3, h4⟩ := hsome x hx r c hs
    have := (C50_sizes rd).2 x.field _ h3 (fun g hg => hnone g fun y hy e => by
      have := hfirst y hy
      rw [e] at this
      omega) (by dsimp only; omega)
    rw [this]
    exact ⟨rfl, rfl⟩
  · have := (C50_sizes rd).1 (fun f => hnone f (by rw [hnil]; simp))
    rw [this]
    exact ⟨rfl, rfl⟩


/-! ## C84 -/

/-- A result as it is to be written. -/
structure ResultFile (F : Type) where
  resp : Resp
  time : Nat
  arr : NdArr F
  args : WrArgs F

namespace Spec

/-- The `wrmds` call for a result: the iteration number is the time step. -/
def resultCall (x : ResultFile F) : WrCall F := ⟨respName x.resp, x.arr, { x.args with itr := some x.time }⟩

/-- Number of levels of an array `(y,x)` or `(z,y,x)`. -/
def levels (a : NdArr F) : Nat := if a.shape.length = 3 then a.shape.headD 0 else 1

/-- `m` is level `d` of an array, `x` first, as stored with precision `p`. -/
def IsLevel (p : Prec) (a : NdArr F) (d : Nat) (m : Mat F) : Prop :=
  (∃ ny nx, a.shape = [ny, nx] ∧ m.rows = nx ∧ m.cols = ny ∧
    ∀ i j, i < nx → j < ny → m.get i j = rounded p (a.get [j, i])) ∨
  (∃ nz ny nx, a.shape = [nz, ny, nx] ∧ d < nz ∧ m.rows = nx ∧ m.cols = ny ∧
    ∀ i j, i < nx → j < ny → m.get i j = rounded p (a.get [d, j, i]))

/-- `M` is the interpolation of a level `l`; velocities are extended by zeros to the size of the interpolator's input. -/
def InterpolatedLevel (xe : Xesmf F W) (r : Regridder W) (kd : SG.Kind) (l M : Mat F) : Prop :=
  ∃ m : Mat F,
    (if kd = .tracer then m.rows = l.rows ∧ m.cols = l.cols
      else m.rows = r.shapeIn.1 ∧ m.cols = r.shapeIn.2 ∧ l.rows ≤ m.rows ∧ l.cols ≤ m.cols) ∧
    (∀ i j, i < m.rows → j < m.cols → m.get i j = if i < l.rows ∧ j < l.cols then l.get i j else Arith.zero) ∧
    xe.apply r.w r.shapeIn r.shapeOut m = .ok M

/-- `A` is the boundary array made of the arrays that were written. -/
def BoundaryOf (xe : Xesmf F W) (r : SG.Kind → Regridder W) (xs : List (ResultFile F)) (ob : Side → ObArg) (ni nj : Nat)
    (times : List Nat) (resp : Resp) (s : Side) (A : Arr3 F) : Prop :=
  A.n0 = sideLength s ni nj ∧ A.n2 = times.length ∧
  (∃ x ∈ xs, x.resp = resp ∧ times.head? = some x.time ∧ A.n1 = levels x.arr) ∧
  ∀ t, (ht : t < times.length) → ∃ x ∈ xs, x.resp = resp ∧ x.time = times[t] ∧
    ∀ d, d < A.n1 → ∃ l M, IsLevel x.args.prec x.arr d l ∧ InterpolatedLevel xe (r (points resp)) (points resp) l M ∧
      ∀ p, p < A.n0 →
        M.atI (obCell s (points resp) (obIndex s ni nj (ob s)) (obPos (ob s) p)).1
          (obCell s (points resp) (obIndex s ni nj (ob s)) (obPos (ob s) p)).2 = .ok (A.get p d t)

end Spec

theorem respName_dot (r : Resp) : '.' ∉ Spec.respName r := by cases r <;> decide

theorem respName_inj {r r' : Resp} (h : Spec.respName r = Spec.respName r') : r = r' := by
  revert h
  cases r <;> cases r' <;> decide

theorem resultCall_name (x : ResultFile F) : (Spec.resultCall x).name = Spec.respName x.resp ++ '.' :: padZero 10 (natText x.time) := rfl

theorem padZero_val (k n : Nat) : textVal (padZero k (natText n)) = n := by
  unfold padZero
  generalize k - (natText n).length = z
  have : ∀ z : Nat, textVal (List.replicate z '0' ++ natText n) = n := by
    intro z
    induction z with
    | zero => exact textVal_natText n
    | succ z ih => rw [List.replicate_succ, List.cons_append]; exact ih
  exact this z

theorem padZero_dot (k n : Nat) : '.' ∉ padZero k (natText n) := by
  unfold padZero
  intro h
  rcases List.mem_append.1 h with h | h
  · exact absurd (List.mem_replicate.1 h).2 (by decide)
  · exact not_mem_natText (by decide) n h

theorem resultName_inj {r r' : Resp} {t t' : Nat} (h : nameOf (Spec.respName r) (some t) = nameOf (Spec.respName r') (some t')) :
    r = r' ∧ t = t' := by
  obtain ⟨h1, h2⟩ := split_unique (respName_dot r) (respName_dot r') h
  refine ⟨respName_inj h1, ?_⟩
  have := congrArg textVal h2
  rwa [padZero_val, padZero_val] at this

theorem resultName_tile {r r' : Resp} {t t' : Nat}
    (h : Spec.TileName (nameOf (Spec.respName r) (some t)) (nameOf (Spec.respName r') (some t') ++ ".meta".toList)) : False := by
  obtain ⟨a, b, x, y, z, u, -, e⟩ := h
  have e1 : nameOf (Spec.respName r') (some t') = nameOf (Spec.respName r) (some t) ++ ['.', a, b, x, '.', y, z, u] := by
    apply suffix_inj ".meta".toList
    rw [e]; simp
  have e2 : Spec.respName r' ++ '.' :: padZero 10 (natText t') =
      Spec.respName r ++ '.' :: (padZero 10 (natText t) ++ ['.', a, b, x, '.', y, z, u]) := by
    rw [show Spec.respName r' ++ '.' :: padZero 10 (natText t') = nameOf (Spec.respName r') (some t') from rfl, e1]
    show Spec.respName r ++ '.' :: padZero 10 (natText t) ++ _ = _
    simp
  obtain ⟨-, h2⟩ := split_unique (respName_dot r') (respName_dot r) e2
  exact padZero_dot 10 t' (by rw [h2]; simp)

theorem isResult_written {r r' : Resp} {t : Nat} : Spec.IsResult r (nameOf (Spec.respName r') (some t) ++ ".data".toList) ↔ r = r' := by
  constructor
  · rintro ⟨mid, e⟩
    have e' : Spec.respName r' ++ '.' :: (padZero 10 (natText t) ++ ".data".toList) = Spec.respName r ++ '.' :: (mid ++ ".data".toList) := by
      have e1 : nameOf (Spec.respName r') (some t) ++ ".data".toList = Spec.respName r' ++ '.' :: (padZero 10 (natText t) ++ ".data".toList) := by
        show (Spec.respName r' ++ '.' :: padZero 10 (natText t)) ++ _ = _
        simp
      rw [← e1, e]; simp
    exact (respName_inj (split_unique (respName_dot r') (respName_dot r) e').1).symm
  · rintro rfl
    refine ⟨padZero 10 (natText t), ?_⟩
    show (Spec.respName r ++ '.' :: padZero 10 (natText t)) ++ _ = _
    simp

theorem isResult_meta {r : Resp} {a : Text} (h : Spec.IsResult r (a ++ ".meta".toList)) : False := by
  obtain ⟨mid, e⟩ := h
  exact data_ne_meta e.symm

/-- The result files afterwards, in order. -/
theorem writeAll_results {pf : Text → Py F} {fe : F → Text} {rnd : F → F} (r : Resp) : ∀ (xs : List (ResultFile F)) (d d' : MdsDir),
    (∀ x ∈ xs, Spec.Record pf fe rnd (Spec.resultCall x)) → d.writeAll fe (xs.map Spec.resultCall) = .ok d' →
    xs.Pairwise (fun a b => ¬ (a.resp = b.resp ∧ a.time = b.time)) →
    (∀ x ∈ xs, (Spec.resultCall x).name ++ ".data".toList ∉ d.names) →
    d'.names.filter (fun n => decide (Spec.IsResult r n)) = d.names.filter (fun n => decide (Spec.IsResult r n)) ++
      (xs.filter (fun x => decide (x.resp = r))).map fun x => (Spec.resultCall x).name ++ ".data".toList
  | [], d, d', _, e, _, _ => by
    cases e
    simp
  | x :: xs, d, d', h, e, hp, hno => by
    obtain ⟨w, hw⟩ := record_written (h x (by simp))
    rw [List.map_cons, writeAll_cons hw] at e
    have hb : w.base = (Spec.resultCall x).name := wrmds_base hw
    obtain ⟨h1, h2⟩ := List.pairwise_cons.1 hp
    rw [writeAll_results r xs _ _ (fun c hc => h c (by simp [hc])) e h2 (fun y hy hm => ?_)]
    · have e1 : (d.write w).names.filter (fun n => decide (Spec.IsResult r n)) = d.names.filter (fun n => decide (Spec.IsResult r n)) ++
          (if x.resp = r then [(Spec.resultCall x).name ++ ".data".toList] else []) := by
        show (d.names ++ [w.base ++ ".meta".toList, w.base ++ ".data".toList].filter (fun n => n ∉ d.names)).filter _ = _
        rw [List.filter_append, List.filter_filter]
        congr 1
        rw [hb, List.filter_cons_of_neg (by
          intro hh
          rw [Bool.and_eq_true] at hh
          exact isResult_meta (of_decide_eq_true hh.1))]
        have hn := hno x (by simp)
        by_cases hr : x.resp = r
        · rw [if_pos hr, List.filter_cons_of_pos, List.filter_nil]
          rw [Bool.and_eq_true]
          exact ⟨decide_eq_true (isResult_written.2 hr.symm), decide_eq_true hn⟩
        · rw [if_neg hr, List.filter_cons_of_neg, List.filter_nil]
          intro hh
          rw [Bool.and_eq_true] at hh
          exact hr (isResult_written.1 (of_decide_eq_true hh.1)).symm
      rw [e1, List.append_assoc]
      congr 1
      by_cases hr : x.resp = r
      · rw [if_pos hr, List.filter_cons_of_pos (by simpa using hr)]; rfl
      · rw [if_neg hr, List.filter_cons_of_neg (by simpa using hr)]; rfl
    · rcases write_mem.1 hm with hm | hm | hm
      · exact hno y (by simp [hy]) hm
      · exact data_ne_meta hm
      · rw [hb] at hm
        obtain ⟨a, b⟩ := resultName_inj (suffix_inj _ hm)
        exact h1 y hy ⟨a.symm, b.symm⟩

/-- A level of the array read. -/
theorem interpolated_level {xe : Xesmf F W} {r : Regridder W} {kd : Kind} {v : Vol F} {d : Nat} {M : Mat F} {x : ResultFile F} {b : NdArr F}
    (hb : b.shape = x.arr.shape) (hget : ∀ idx, InShape b.shape idx → b.get idx = Spec.rounded x.args.prec (x.arr.get idx))
    (hrank : x.arr.shape.length = 2 ∨ x.arr.shape.length = 3) (hv : volOf b = .ok v)
    (h : Spec.Interpolated xe r kd v d M) :
    ∃ l, Spec.IsLevel x.args.prec x.arr d l ∧ Spec.InterpolatedLevel xe r kd l M := by
  obtain ⟨hdep, m, h1, h2, h3⟩ := h
  match hs : x.arr.shape, hrank with
  | [ny, nx], _ =>
    unfold volOf at hv
    rw [hb, hs] at hv
    cases hv
    refine ⟨⟨nx, ny, fun i j => b.get [j, i]⟩, .inl ⟨ny, nx, hs, rfl, rfl, fun i j hi hj => hget _ ?_⟩, m, h1, h2, h3⟩
    rw [hb, hs]; exact ⟨hj, hi, trivial⟩
  | [nz, ny, nx], _ =>
    unfold volOf at hv
    rw [hb, hs] at hv
    cases hv
    have hdn := hdep nz rfl
    refine ⟨⟨nx, ny, fun i j => b.get [d, j, i]⟩, .inr ⟨nz, ny, nx, hs, hdn, rfl, rfl, fun i j hi hj => hget _ ?_⟩, m, h1, h2, h3⟩
    rw [hb, hs]; exact ⟨hdn, hj, hi, trivial⟩

/-- **C84**.  Results are written with `wrmds` into a directory that has none, each response and time step once.  If `getobcs` then succeeds on
that directory, time slices are the time steps of `T` in increasing order, every response that was written has been written at all of
them, and every boundary file holds the interpolation of the arrays that were written. -/
theorem C84_results_to_boundaries [LawfulF64 F] (pf : Text → Py F) (fe : F → Text) (rnd : F → F) (d : MdsDir) (xs : List (ResultFile F))
    (hrec : ∀ x ∈ xs, Spec.Record pf fe rnd (Spec.resultCall x))
    (hdist : xs.Pairwise fun a b => ¬ (a.resp = b.resp ∧ a.time = b.time))
    (hold : ∀ n ∈ d.names, ∀ r : Resp, ¬ (Spec.respName r ++ ".".toList) <+: n) :
    ∃ d', d.writeAll fe (xs.map Spec.resultCall) = .ok d' ∧
      ∀ (geod : Geod F) (fs : Files F) (fuel : Nat) (xe : Xesmf F W) (runs : Text → RunDir F) (a : ObcsArgs F) (k k' : Disk W) (pdir dir : Text),
        a.parentResultsdir = some pdir → Spec.OutDir a pdir dir → runs pdir = d'.runDir pf →
        getobcs geod fs fuel xe runs a k = some (k', .ok ()) →
        ∃ pd pn pm gd ni nj r times, Spec.ParentGrid fs a pd pn pm ∧ Spec.RegionalGrid fs a gd ni nj ∧
          Spec.Interpolators geod fs fuel xe dir pd pn pm gd ni nj k k' r ∧
          times.Pairwise (· < ·) ∧ (∀ t, t ∈ times ↔ ∃ x ∈ xs, x.resp = .T ∧ x.time = t) ∧ times ≠ [] ∧
          (∀ x ∈ xs, ∀ s : Side, ∃ (A : Arr3 F) (bytes : List Byte), k'.out (Spec.inDir dir (Spec.obName s x.resp)) = some bytes ∧
            Spec.BytesOf A bytes ∧ Spec.BoundaryOf xe r xs a.ob ni nj times x.resp s A) ∧
          ∀ n, (∀ x ∈ xs, ∀ s, n ≠ Spec.inDir dir (Spec.obName s x.resp)) → k'.out n = k.out n := by
  have hrec' : ∀ c ∈ xs.map Spec.resultCall, Spec.Record pf fe rnd c := by
    intro c hc
    obtain ⟨x, hx, rfl⟩ := List.mem_map.1 hc
    exact hrec x hx
  obtain ⟨d', hd'⟩ := writeAll_ok (xs.map Spec.resultCall) d hrec'
  refine ⟨d', hd', fun geod fs fuel xe runs a k k' pdir dir hdir hod hruns h => ?_⟩
  have hp : (xs.map Spec.resultCall).Pairwise (fun a b => a.name ≠ b.name) := by
    rw [List.pairwise_map]
    exact hdist.imp fun h e => h (resultName_inj e)
  have holdData : ∀ x ∈ xs, (Spec.resultCall x).name ++ ".data".toList ∉ d.names := fun x hx hm =>
    hold _ hm x.resp ⟨padZero 10 (natText x.time) ++ ".data".toList, by rw [resultCall_name]; simp⟩
  have holdTile : ∀ (r : Resp) (t : Nat), ∀ n ∈ d.names, ¬ Spec.TileName (nameOf (Spec.respName r) (some t)) n := by
    rintro r t n hn ⟨a, b, x, y, z, u, -, rfl⟩
    refine hold _ hn r ⟨padZero 10 (natText t) ++ ['.', a, b, x, '.', y, z, u, '.', 'm', 'e', 't', 'a'], ?_⟩
    show _ = (Spec.respName r ++ '.' :: padZero 10 (natText t)) ++ _
    simp
  have hold0 : ∀ r, d.names.filter (fun n => decide (Spec.IsResult r n)) = [] := by
    intro r
    rw [List.filter_eq_nil_iff]
    intro n hn hr
    obtain ⟨mid, e⟩ := of_decide_eq_true hr
    exact hold n hn r ⟨mid ++ ".data".toList, by rw [e]; simp⟩
  have hres : ∀ r, d'.names.filter (fun n => decide (Spec.IsResult r n)) =
      (xs.filter (fun x => decide (x.resp = r))).map fun x => (Spec.resultCall x).name ++ ".data".toList := by
    intro r
    rw [writeAll_results r xs d d' hrec hd' hdist holdData, hold0 r, List.nil_append]
  have hpres : ∀ r, Spec.Present d'.names r ↔ ∃ x ∈ xs, x.resp = r := by
    intro r
    constructor
    · rintro ⟨n, hn, hr⟩
      have : n ∈ d'.names.filter (fun n => decide (Spec.IsResult r n)) := List.mem_filter.2 ⟨hn, decide_eq_true hr⟩
      rw [hres r] at this
      obtain ⟨x, hx, -⟩ := List.mem_map.1 this
      obtain ⟨h1, h2⟩ := List.mem_filter.1 hx
      exact ⟨x, h1, of_decide_eq_true h2⟩
    · rintro ⟨x, hx, rfl⟩
      have : (Spec.resultCall x).name ++ ".data".toList ∈ d'.names.filter (fun n => decide (Spec.IsResult x.resp n)) := by
        rw [hres]
        exact List.mem_map.2 ⟨x, List.mem_filter.2 ⟨hx, by simp⟩, rfl⟩
      obtain ⟨h1, h2⟩ := List.mem_filter.1 this
      exact ⟨_, h1, of_decide_eq_true h2⟩
  -- what is read
  have hread : ∀ (r : Resp) (t : Nat) (v : Vol F), (d'.runDir pf).read (Spec.respName r) t = .ok v →
      ∃ x ∈ xs, x.resp = r ∧ x.time = t ∧ ∃ b : NdArr F, b.shape = x.arr.shape ∧ volOf b = .ok v ∧
        ∀ idx, InShape b.shape idx → b.get idx = Spec.rounded x.args.prec (x.arr.get idx) := by
    intro r t v hv
    by_cases hx : ∃ x ∈ xs, x.resp = r ∧ x.time = t
    · obtain ⟨x, hx, rfl, rfl⟩ := hx
      obtain ⟨b, h1, h2, h3⟩ := rdmds_writeAll hrec' hd' hp (List.mem_map.2 ⟨x, hx, rfl⟩) (holdTile x.resp x.time) (by
        intro c' hc' ht
        obtain ⟨y, hy, rfl⟩ := List.mem_map.1 hc'
        exact resultName_tile ht)
      refine ⟨x, hx, rfl, rfl, b, h2, ?_, h3⟩
      have h1 : rdmds pf d' (Spec.respName x.resp) { itrs := .one x.time, fill := (Arith.zero : F) } = .ok b := h1
      have hv : (rdmds pf d' (Spec.respName x.resp) { itrs := .one x.time, fill := (Arith.zero : F) }).bind volOf = .ok v := hv
      rw [h1] at hv
      exact hv
    · exfalso
      have hmiss := rdmds_missing (F := F) (pf := pf) (d := d') (fname := Spec.respName r) (itr := some t) (fun n hn ht => by
        rcases (writeAll_names _ d d' hrec' hd' n).1 hn with hn | ⟨c', hc', rfl | rfl⟩
        · exact holdTile r t n hn ht
        · obtain ⟨y, hy, rfl⟩ := List.mem_map.1 hc'
          exact resultName_tile ht
        · exact data_not_tile ht) (fun hm => by
        rcases (writeAll_names _ d d' hrec' hd' _).1 hm with hm | ⟨c', hc', e | e⟩
        · refine hold _ hm r ⟨padZero 10 (natText t) ++ ".meta".toList, ?_⟩
          show _ = (Spec.respName r ++ '.' :: padZero 10 (natText t)) ++ _
          simp
        · obtain ⟨y, hy, rfl⟩ := List.mem_map.1 hc'
          obtain ⟨e1, e2⟩ := resultName_inj (suffix_inj _ e)
          exact hx ⟨y, hy, e1.symm, e2.symm⟩
        · exact data_ne_meta e.symm)
      have hmiss : rdmds pf d' (Spec.respName r) { itrs := .one t, fill := (Arith.zero : F) } = .error .ioError := hmiss
      have hv : (rdmds pf d' (Spec.respName r) { itrs := .one t, fill := (Arith.zero : F) }).bind volOf = .ok v := hv
      rw [hmiss] at hv
      cases hv
  have hdepth : ∀ (x : ResultFile F) (b : NdArr F) (v : Vol F), x ∈ xs → b.shape = x.arr.shape → volOf b = .ok v →
      v.depths.getD 1 = Spec.levels x.arr := by
    intro x b v hx hb hv
    match hs : x.arr.shape, (hrec x hx).rank with
    | [ny, nx], _ =>
      unfold volOf at hv
      rw [hb, hs] at hv
      cases hv
      unfold Spec.levels
      rw [hs]; rfl
    | [nz, ny, nx], _ =>
      unfold volOf at hv
      rw [hb, hs] at hv
      cases hv
      unfold Spec.levels
      rw [hs]; rfl
  -- the run
  let files : List (Nat × Text) := (xs.filter (fun x => decide (x.resp = .T))).map fun x => (x.time, [])
  obtain ⟨pd, pn, pm, gd, ni, nj, r, times, g1, g2, g3, g4, g5, g6, g7⟩ :=
    C54_assembly geod fs fuel xe runs a k k' pdir dir hdir hod files (by
      intro x hx c hc
      obtain ⟨y, hy, rfl⟩ := List.mem_map.1 hx
      cases hc) (by
      rw [hruns]
      show d'.names.filter _ = _
      rw [hres .T, List.map_map]
      apply List.map_congr_left
      intro x hx
      have : x.resp = .T := of_decide_eq_true (List.mem_filter.1 hx).2
      rw [resultCall_name, this]
      show _ = Spec.resultName "T".toList x.time []
      unfold Spec.resultName padZero
      simp [Spec.respName]) h
  have hmem : ∀ t, t ∈ files.map (·.1) ↔ ∃ x ∈ xs, x.resp = .T ∧ x.time = t := by
    intro t
    simp only [files, List.map_map, List.mem_map, List.mem_filter, decide_eq_true_eq, Function.comp]
    constructor
    · rintro ⟨x, ⟨h1, h2⟩, h3⟩; exact ⟨x, h1, h2, h3⟩
    · rintro ⟨x, h1, h2, h3⟩; exact ⟨x, ⟨h1, h2⟩, h3⟩
  have hnodup : (files.map (·.1)).Pairwise (· ≠ ·) := by
    simp only [files, List.map_map]
    rw [List.pairwise_map]
    have := hdist.filter (fun x => decide (x.resp = .T))
    refine List.Pairwise.imp_of_mem ?_ this
    intro x y hx hy hne e
    have h1 : x.resp = .T := of_decide_eq_true (List.mem_filter.1 hx).2
    have h2 : y.resp = .T := of_decide_eq_true (List.mem_filter.1 hy).2
    exact hne ⟨h1.trans h2.symm, e⟩
  have hlt : times.Pairwise (· < ·) := by
    have h1 : times.Pairwise (· ≠ ·) := (List.Perm.pairwise_iff (fun h => Ne.symm h) g4).2 hnodup
    exact (List.Pairwise.and g5 h1).imp fun h => Nat.lt_of_le_of_ne h.1 h.2
  rw [hruns] at g7
  refine ⟨pd, pn, pm, gd, ni, nj, r, times, g1, g2, g3, hlt, fun t => (g4.mem_iff).trans (hmem t), g6, fun x hx s => ?_, fun n hn => ?_⟩
  · obtain ⟨A, bytes, o1, o2, o3, o4, ⟨v0, o5, o6⟩, o7⟩ := g7.1 x.resp ((hpres x.resp).2 ⟨x, hx, rfl⟩) s
    refine ⟨A, bytes, o1, o2, o3, o4, ?_, fun t ht => ?_⟩
    · obtain ⟨y, hy, y1, y2, b, b1, b2, b3⟩ := hread _ _ _ o5
      refine ⟨y, hy, y1, ?_, o6.trans (hdepth y b v0 hy b1 b2)⟩
      rw [y2]
      cases times with
      | nil => exact absurd rfl g6
      | cons t l => rfl
    · obtain ⟨v, v1, v2⟩ := o7 t ht
      obtain ⟨y, hy, y1, y2, b, b1, b2, b3⟩ := hread _ _ _ v1
      refine ⟨y, hy, y1, y2, fun e he => ?_⟩
      obtain ⟨M, m1, m2⟩ := v2 e he
      obtain ⟨l, l1, l2⟩ := interpolated_level b1 b3 (hrec y hy).rank b2 m1
      exact ⟨l, M, l1, l2, m2⟩
  · refine g7.2 n fun resp hr s => ?_
    obtain ⟨x, hx, rfl⟩ := (hpres resp).1 hr
    exact hn x hx s


/-! ## Concrete cases -/

namespace ExRun

open ExTiles (pf)
open ExWr (fe)

/-- `XG` and `YC` of `2 x 1` cells, other files in the directory. -/
def fields : List (FieldFile Toy) :=
  [⟨.XG, ⟨[1, 2], fun i => .ofInt (3 + ravel [1, 2] i)⟩, { prec := .f64 }⟩, ⟨.YC, ⟨[1, 2], fun i => .ofInt (7 + ravel [1, 2] i)⟩, { prec := .f64, nrecords := some 1 }⟩]

def other : MdsDir := ⟨["data".toList, "XG.data".toList, "hFacC.meta".toList], fun _ => [], fun _ => []⟩

theorem labels (itr : Option Nat) (nr : Option Nat) : Spec.Labels pf fe id ({ itr := itr, prec := .f64, nrecords := nr } : WrArgs Toy) :=
  ⟨fun _ h => (by cases h), fun _ h => (by cases h), fun _ h => (by cases h)⟩

theorem fields_ok : ∀ x ∈ fields, Spec.Record pf fe id (Spec.fieldCall x) ∧ x.arr.shape.length = 2 := by
  intro x hx
  simp only [fields, List.mem_cons, List.not_mem_nil, or_false] at hx
  rcases hx with rfl | rfl
  · exact ⟨⟨.inl rfl, rfl, .inl rfl, rfl, labels none none⟩, rfl⟩
  · exact ⟨⟨.inl rfl, rfl, .inr rfl, rfl, labels none (some 1)⟩, rfl⟩

theorem other_free (f : Field) : Spec.fieldName f ++ ".meta".toList ∉ other.names ∧ ∀ n ∈ other.names, ¬ Spec.TileName (Spec.fieldName f) n := by
  refine ⟨by cases f <;> decide, fun n hn ht => ?_⟩
  rw [← tileName_iff] at ht
  revert ht
  simp only [other, List.mem_cons, List.not_mem_nil, or_false] at hn
  rcases hn with rfl | rfl | rfl <;> cases f <;> decide

example := C83_grid_files pf fe id other fields fields_ok (by decide) other_free

set_option maxRecDepth 40000 in
/-- `mds2mitgrid` on the directory: size `2 x 1`, `XG` with an extra row and column. -/
example : (do
    let d ← other.writeAll fe (fields.map Spec.fieldCall)
    let (g, ni, nj) ← mds2mitgridDir pf d
    let x ← g.arr .XG
    return (ni, nj, x.rows, x.cols, x.toList.map (·.bits.toNat))) =
      (.ok (2, 1, 3, 2, [3, 0, 4, 0, 0, 0]) : Py (Nat × Nat × Nat × Nat × List Nat)) := by decide +kernel

/-- Temperature at steps 12 and 3 with two levels, sea level without levels. -/
def results : List (ResultFile Toy) :=
  [⟨.T, 12, ⟨[2, 1, 2], fun i => .ofInt (1200 + i.headD 0)⟩, { prec := .f64 }⟩,
   ⟨.Eta, 3, ⟨[1, 2], fun _ => .ofInt 33⟩, { prec := .f64 }⟩,
   ⟨.T, 3, ⟨[2, 1, 2], fun i => .ofInt (300 + i.headD 0)⟩, { prec := .f64 }⟩,
   ⟨.Eta, 12, ⟨[1, 2], fun _ => .ofInt 44⟩, { prec := .f64 }⟩]

theorem results_ok : ∀ x ∈ results, Spec.Record pf fe id (Spec.resultCall x) := by
  intro x hx
  simp only [results, List.mem_cons, List.not_mem_nil, or_false] at hx
  rcases hx with rfl | rfl | rfl | rfl
  · exact ⟨.inr rfl, rfl, .inl rfl, rfl, labels (some 12) none⟩
  · exact ⟨.inl rfl, rfl, .inl rfl, rfl, labels (some 3) none⟩
  · exact ⟨.inr rfl, rfl, .inl rfl, rfl, labels (some 3) none⟩
  · exact ⟨.inl rfl, rfl, .inl rfl, rfl, labels (some 12) none⟩

theorem other_free' : ∀ n ∈ other.names, ∀ r : Resp, ¬ (Spec.respName r ++ ".".toList) <+: n := by
  intro n hn r
  rw [← List.isPrefixOf_iff_prefix]
  simp only [other, List.mem_cons, List.not_mem_nil, or_false] at hn
  rcases hn with rfl | rfl | rfl <;> cases r <;> decide

example := C84_results_to_boundaries (W := Toy) pf fe id other results results_ok (by decide) other_free'

def show84 : Option (List (Option (List Nat))) :=
  match other.writeAll fe (results.map Spec.resultCall) with
  | .ok d => exShow (getobcs Toy.geod exNoFiles 10 exXe (fun _ => d.runDir pf) (exObArgs 1 fun _ => .missing) exDisk)
      ["run_obcs/OBNt", "run_obcs/OBWeta", "run_obcs/OBWu"]
  | .error _ => none

set_option maxRecDepth 40000 in
/-- The call succeeds on these files: steps 3 and 12 in this order. -/
example : show84 = some [some [1300, 2200, 1301, 2201, 1310, 2210, 1311, 2211], some [1033, 1044], none] := by decide +kernel

end ExRun

end SG
