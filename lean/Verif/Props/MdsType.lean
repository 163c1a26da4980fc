import Verif.Model.MdsType
import Verif.Props.MdsTiles
/-! # C144: the argument `astype` of `rdmds` -/

set_option linter.unusedSectionVars false

namespace SG
variable {F G H : Type}

namespace Spec

/-- The array with `f` applied to every element. -/
def each (f : G → H) (a : NdArr G) : NdArr H := ⟨a.shape, fun i => f (a.get i)⟩

/-- The number that a single or a double is. -/
def value [F64 F] [F32 F] : Stored → F
  | .single w => F32.ofBits32 w
  | .double w => F64.ofBits w

end Spec

/-! ## Arrays -/

theorem each_set (f : G → H) (a : NdArr G) (p : List Nat) (x : G) : (Spec.each f a).set p (f x) = Spec.each f (a.set p x) := by
  unfold Spec.each NdArr.set
  dsimp only
  congr 1
  funext i
  by_cases h : i = p
  · rw [if_pos h, if_pos h]
  · rw [if_neg h, if_neg h]

theorem each_fold (f : G → H) (pos : List Nat → List Nat) (v : NdArr G) : ∀ (l : List (List Nat)) (a : NdArr G),
    l.foldl (fun a idx => a.set (pos idx) ((Spec.each f v).bget idx)) (Spec.each f a) = Spec.each f (l.foldl (fun a idx => a.set (pos idx) (v.bget idx)) a)
  | [], _ => rfl
  | i :: l, a => by
    rw [List.foldl_cons, List.foldl_cons, ← each_fold f pos v l, ← each_set]
    rfl

theorem each_assign (f : G → H) (a v : NdArr G) (vs : List Nat) (pos : List Nat → List Nat) :
    (Spec.each f a).assign vs pos (Spec.each f v) = (a.assign vs pos v).map (Spec.each f) := by
  unfold NdArr.assign
  show (if NdArr.castable v.shape vs = true then _ else _) = _
  by_cases h : NdArr.castable v.shape vs = true
  · rw [if_pos h, if_pos h, each_fold]; rfl
  · rw [if_neg h, if_neg h]; rfl

theorem each_ofList (f : G → H) (z : G) (s : List Nat) (l : List G) : NdArr.ofList (f z) s (l.map f) = Spec.each f (NdArr.ofList z s l) := by
  unfold NdArr.ofList Spec.each
  dsimp only
  congr 1
  funext i
  rw [List.getD_eq_getElem?_getD, List.getD_eq_getElem?_getD, List.getElem?_map]
  cases l[ravel s i]? <;> rfl

theorem each_select (f : G → H) (a : NdArr G) (sel : List (List Nat)) : (Spec.each f a).select sel = Spec.each f (a.select sel) := rfl

theorem each_reshape (f : G → H) (z : G) (a : NdArr G) (s : List Nat) : (Spec.each f a).reshape (f z) s = (a.reshape z s).map (Spec.each f) := by
  unfold NdArr.reshape
  show (if prodL s = prodL a.shape then _ else _) = _
  by_cases h : prodL s = prodL a.shape
  · rw [if_pos h, if_pos h]
    show Except.ok (NdArr.ofList (f z) s ((indices a.shape).map fun i => f (a.get i))) = Except.ok _
    rw [← each_ofList]
    unfold NdArr.toList
    rw [List.map_map]
    rfl
  · rw [if_neg h, if_neg h]; rfl

theorem foldlM_through {α σ τ : Type} (φ : σ → τ) {f : σ → α → Py σ} {g : τ → α → Py τ} (h : ∀ s a, g (φ s) a = (f s a).map φ) : ∀ (l : List α) (s : σ),
    l.foldlM g (φ s) = (l.foldlM f s).map φ
  | [], _ => rfl
  | a :: l, s => by
    rw [List.foldlM_cons, List.foldlM_cons, h]
    cases f s a with
    | error e => rfl
    | ok s' => exact foldlM_through φ h l s'

/-! ## Conversion of elements -/

/-- Every element of the second type comes from one of the first. -/
structure Conv (f : G → H) (T : Target G) (U : Target H) : Prop where
  items : ∀ p e bs, U.items p e bs = (T.items p e bs).map f
  fill : ∀ p, U.fill p = f (T.fill p)
  zero : U.zero = f T.zero

section
variable {f : G → H} {T : Target G} {U : Target H}

theorem readAll_conv (h : Conv f T U) (args : RdArgs F) (st : RdState F) (arr : NdArr G) (iit : Nat) (pl : Place) (src : Option (Int × Int × Int × Int))
    (bytes : Unit → Py (List Byte)) :
    readAllAs U args st (Spec.each f arr) iit pl src bytes = (readAllAs T args st arr iit pl src bytes).map (Spec.each f) := by
  unfold readAllAs
  split
  · cases bytes () with
    | error e => rfl
    | ok bs =>
      show (if _ then _ else _) = Except.map _ (if _ then _ else _)
      rw [h.items, List.length_map, h.zero]
      split
      · rfl
      · cases sourceAxes args st.recshape src with
        | error e => rfl
        | ok axes =>
          show NdArr.assign _ _ _ (NdArr.select (NdArr.ofList _ _ _) _) = Except.map _ (NdArr.assign _ _ _ _)
          rw [each_ofList, each_select, each_assign]
  · rfl

theorem readRec_conv (h : Conv f T U) (args : RdArgs F) (st : RdState F) (iit : Nat) (pl : Place) (src : Option (Int × Int × Int × Int))
    (bs : List Byte) (arr : NdArr G) (x : Int × Nat) :
    readRecAs U args st iit pl src bs (Spec.each f arr) x = (readRecAs T args st iit pl src bs arr x).map (Spec.each f) := by
  unfold readRecAs
  dsimp only
  generalize (if x.1 < 0 then x.1 + (st.nrecords : Int) else x.1) = r
  split
  · rfl
  · show (if _ then _ else _) = Except.map _ (if _ then _ else _)
    split
    · show (if _ then _ else _) = Except.map _ (if _ then _ else _)
      rw [h.items, ← List.map_take, List.length_map, h.zero]
      split
      · rfl
      · cases sourceAxes args st.recshape src with
        | error e => rfl
        | ok axes =>
          show NdArr.assign _ _ _ (NdArr.select (NdArr.ofList _ _ _) _) = Except.map _ (NdArr.assign _ _ _ _)
          rw [each_ofList, each_select, each_assign]
    · rfl

theorem readTile_conv (h : Conv f T U) (args : RdArgs F) (st : RdState F) (arr : NdArr G) (iit : Nat) (pl : Place) (src : Option (Int × Int × Int × Int))
    (bytes : Unit → Py (List Byte)) :
    readTileAs U args st (Spec.each f arr) iit pl src bytes = (readTileAs T args st arr iit pl src bytes).map (Spec.each f) := by
  unfold readTileAs
  split
  · exact readAll_conv h args st arr iit pl src bytes
  · cases bytes () with
    | error e => rfl
    | ok bs => exact foldlM_through (Spec.each f) (fun s a => readRec_conv h args st iit pl src bs s a) _ arr

variable [PyFloat F]

/-- The state with the array converted. -/
def through (f : G → H) (s : Option (RdState F × NdArr G)) : Option (RdState F × NdArr H) := s.map fun x => (x.1, Spec.each f x.2)

theorem tileStep_conv (h : Conv f T U) (pf : Text → Py F) (d : MdsDir) (args : RdArgs F) (nit iit : Nat) (s : Option (RdState F × NdArr G)) (n : Text) :
    tileStepAs U pf d args nit iit (through f s) n = (tileStepAs T pf d args nit iit s n).map (through f) := by
  have h1 : (through f s).map (·.1) = s.map (·.1) := by cases s <;> rfl
  have h2 : ∀ st, allocAs U (through f s) st = Spec.each f (allocAs T s st) := by
    intro st
    cases s with
    | none => show NdArr.mk _ _ = NdArr.mk _ _; rw [h.fill]; rfl
    | some x => rfl
  unfold tileStepAs
  rw [h1]
  cases d.openText n with
  | error e => rfl
  | ok text =>
  show (readmeta pf text >>= _) = Except.map _ (readmeta pf text >>= _)
  cases readmeta pf text with
  | error e => rfl
  | ok m =>
  show (stateFor args nit _ m >>= _) = Except.map _ (stateFor args nit _ m >>= _)
  cases stateFor args nit (s.map (·.1)) m with
  | error e => rfl
  | ok st =>
  show (regionOf args st.win m >>= _) = Except.map _ (regionOf args st.win m >>= _)
  cases regionOf args st.win m with
  | error e => rfl
  | ok r =>
  obtain ⟨i0s, ies, src⟩ := r
  show (placeOf _ i0s ies m.m2g >>= _) = Except.map _ (placeOf _ i0s ies m.m2g >>= _)
  rw [h2]
  show (placeOf ((allocAs T s st).shape.drop 2) i0s ies m.m2g >>= _) = _
  cases placeOf ((allocAs T s st).shape.drop 2) i0s ies m.m2g with
  | error e => rfl
  | ok pl =>
  show (readTileAs U args st _ iit pl src _ >>= _) = Except.map _ (readTileAs T args st _ iit pl src _ >>= _)
  rw [readTile_conv h]
  cases readTileAs T args st (allocAs T s st) iit pl src fun _ => d.openData (n.take (n.length - 4) ++ "data".toList) with
  | error e => rfl
  | ok a => rfl

theorem rdmds_conv (h : Conv f T U) (pf : Text → Py F) (d : MdsDir) (fname : Text) (args : RdArgs F) :
    rdmdsAs U pf d fname args = (rdmdsAs T pf d fname args).map (Spec.each f) := by
  have step : ∀ nit s x, itrStepAs U pf d fname args nit (through f s) x = (itrStepAs T pf d fname args nit s x).map (through f) := by
    intro nit s x
    unfold itrStepAs
    dsimp only
    split
    · rfl
    · exact foldlM_through (through f) (fun s a => tileStep_conv h pf d args nit x.2 s a) _ s
  unfold rdmdsAs
  have := foldlM_through (through f) (step (itrsOf d fname args.itrs).length) (itrsOf d fname args.itrs).zipIdx none
  rw [show (through f none : Option (RdState F × NdArr H)) = none from rfl] at this
  dsimp only
  rw [this]
  cases (itrsOf d fname args.itrs).zipIdx.foldlM (itrStepAs T pf d fname args (itrsOf d fname args.itrs).length) none with
  | error e => rfl
  | ok s =>
    cases s with
    | none =>
      show Except.ok (NdArr.mk _ _) = Except.ok (NdArr.mk _ _)
      rw [h.zero]
    | some x =>
      show NdArr.reshape U.zero (Spec.each f x.2) _ = Except.map _ (NdArr.reshape T.zero x.2 _)
      rw [h.zero, each_reshape]
      rfl

end

/-! ## The default -/

section
variable [PyFloat F] [F64 F] [F32 F]

/-- All elements are the fill value. -/
def Filled (args : RdArgs F) (s : RdState F) : Prop := s.arr = ⟨s.arr.shape, fun _ => args.fill⟩

theorem initState_filled {args : RdArgs F} {nit : Nat} {m : TileMeta F} {s : RdState F} (h : initState args nit m = .ok s) : Filled args s := by
  have bnd : ∀ {α : Type} {x : Py α} {f : α → Py (RdState F)}, (∀ a s, f a = .ok s → Filled args s) → ∀ s, (x >>= f) = .ok s → Filled args s := by
    intro α x f hf s hs
    obtain ⟨a, -, h⟩ := bind_ok_inv hs
    exact hf a s h
  suffices H : ∀ s, initState args nit m = .ok s → Filled args s from H s h
  clear h
  unfold initState
  extract_lets dims middle jp
  have hj : ∀ v s, jp v = .ok s → Filled args s := by
    intro v
    refine bnd fun prec => ?_
    extract_lets jp2
    have hj2 : ∀ v s, jp2 v = .ok s → Filled args s := by
      intro v
      refine bnd fun recshape => ?_
      extract_lets jp4 jp3
      have hj4 : ∀ v s, jp4 v = .ok s → Filled args s := by
        intro v
        dsimp only [jp4]
        refine bnd fun gx => bnd fun gy => ?_
        split
        · refine bnd fun _ => bnd fun mid => bnd fun ny => bnd fun nx => ?_
          intro s h
          cases h
          rfl
        · refine bnd fun mid => bnd fun ny => bnd fun nx => ?_
          intro s h
          cases h
          rfl
      have hj3 : ∀ v s, jp3 v = .ok s → Filled args s := by
        intro v
        unfold jp3
        split <;> exact bnd hj4
      split <;> exact bnd hj3
    split
    · exact bnd hj2
    · exact hj2 ()
  split
  · exact bnd hj
  · split <;> exact bnd hj

/-- The state of `rdmds` that goes with a state of `rdmdsAs`. -/
def merged (s : Option (RdState F × NdArr F)) : Option (RdState F) := s.map fun x => { x.1 with arr := x.2 }

theorem readTile_double (args : RdArgs F) (st : RdState F) (arr : NdArr F) (iit : Nat) (pl : Place) (src : Option (Int × Int × Int × Int))
    (bytes : Unit → Py (List Byte)) :
    readTile args { st with arr := arr } iit pl src bytes = readTileAs (Target.double args.fill) args st arr iit pl src bytes := rfl

theorem tileStep_double (pf : Text → Py F) (d : MdsDir) (args : RdArgs F) (nit iit : Nat) (s : Option (RdState F × NdArr F)) (n : Text) :
    tileStep pf d args nit iit (merged s) n = (tileStepAs (Target.double args.fill) pf d args nit iit s n).map merged := by
  unfold tileStep tileStepAs
  cases d.openText n with
  | error e => rfl
  | ok text =>
  show (readmeta pf text >>= _) = Except.map _ (readmeta pf text >>= _)
  cases readmeta pf text with
  | error e => rfl
  | ok m =>
  show (stateFor args nit _ m >>= _) = Except.map _ (stateFor args nit _ m >>= _)
  have hst : stateFor args nit (merged s) m =
      (stateFor args nit (s.map (·.1)) m).map fun st => { st with arr := allocAs (Target.double args.fill) s st } := by
    cases s with
    | none =>
      show initState args nit m = Except.map _ (initState args nit m)
      cases h : initState args nit m with
      | error e => rfl
      | ok st =>
        have := initState_filled h
        unfold Filled at this
        show Except.ok st = Except.ok { st with arr := ⟨st.arr.shape, fun _ => args.fill⟩ }
        rw [← this]
    | some x =>
      show (if _ then _ else _) = Except.map _ (if _ then _ else _)
      split <;> rfl
  rw [hst]
  cases stateFor args nit (s.map (·.1)) m with
  | error e => rfl
  | ok st =>
  show (regionOf args st.win m >>= _) = Except.map _ (regionOf args st.win m >>= _)
  cases regionOf args st.win m with
  | error e => rfl
  | ok r =>
  obtain ⟨i0s, ies, src⟩ := r
  show (placeOf ((allocAs (Target.double args.fill) s st).shape.drop 2) i0s ies m.m2g >>= _) = Except.map _ (placeOf _ i0s ies m.m2g >>= _)
  cases placeOf ((allocAs (Target.double args.fill) s st).shape.drop 2) i0s ies m.m2g with
  | error e => rfl
  | ok pl =>
  show (readTile args _ iit pl src _ >>= _) = Except.map _ (readTileAs _ args st _ iit pl src _ >>= _)
  rw [readTile_double]
  cases readTileAs (Target.double args.fill) args st (allocAs (Target.double args.fill) s st) iit pl src
      fun _ => d.openData (n.take (n.length - 4) ++ "data".toList) with
  | error e => rfl
  | ok a => rfl

/-- `astype=float` is the default. -/
theorem rdmdsAs_double (pf : Text → Py F) (d : MdsDir) (fname : Text) (args : RdArgs F) :
    rdmdsAs (Target.double args.fill) pf d fname args = rdmds pf d fname args := by
  have step : ∀ nit s x, itrStep pf d fname args nit (merged s) x = (itrStepAs (Target.double args.fill) pf d fname args nit s x).map merged := by
    intro nit s x
    unfold itrStep itrStepAs
    dsimp only
    generalize d.metafiles _ = l
    cases l with
    | nil => rfl
    | cons a l => exact foldlM_through merged (fun s a => tileStep_double pf d args nit x.2 s a) _ s
  unfold rdmdsAs rdmds
  have := foldlM_through merged (step (itrsOf d fname args.itrs).length) (itrsOf d fname args.itrs).zipIdx none
  rw [show (merged none : Option (RdState F)) = none from rfl] at this
  dsimp only
  rw [this]
  cases (itrsOf d fname args.itrs).zipIdx.foldlM (itrStepAs (Target.double args.fill) pf d fname args (itrsOf d fname args.itrs).length) none with
  | error e => rfl
  | ok s =>
    cases s with
    | none => rfl
    | some x =>
      show NdArr.reshape _ x.2 _ = NdArr.reshape _ x.2 _
      rfl

/-- **C144** (another type): `astype` does nothing but convert every element of the array that is returned without it; the shape is the same, and errors are
the same. -/
theorem C144_astype (conv : F → G) (pf : Text → Py F) (d : MdsDir) (fname : Text) (args : RdArgs F) :
    rdmdsAs (Target.of conv args.fill) pf d fname args = (rdmds pf d fname args).map (Spec.each conv) := by
  have h : Conv conv (Target.double args.fill) (Target.of conv args.fill) := ⟨fun _ _ _ => rfl, fun _ => rfl, rfl⟩
  exact (rdmds_conv h pf d fname args).trans (congrArg _ (rdmdsAs_double pf d fname args))

/-- **C144** (the type of the files): with `astype=None` the elements are the singles or doubles of the files, unchanged, and their values are what the default
gives; so nothing is lost with half the memory.  The fill value has to be a single. -/
theorem C144_file_type (pf : Text → Py F) (d : MdsDir) (fname : Text) (args : RdArgs F) (h0 : (F64.ofBits 0 : F) = Arith.zero)
    (hfill : (F32.ofBits32 (F32.toBits32 args.fill) : F) = args.fill) (hfill64 : (F64.ofBits (F64.toBits args.fill) : F) = args.fill) :
    rdmds pf d fname args = (rdmdsAs (Target.same args.fill) pf d fname args).map (Spec.each Spec.value) := by
  rw [← rdmdsAs_double]
  refine rdmds_conv ⟨fun p e bs => ?_, fun p => ?_, h0.symm⟩ pf d fname args
  · show itemsOf p e bs = List.map _ (List.map _ _)
    rw [List.map_map]
    unfold itemsOf
    apply List.map_congr_left
    intro k _
    cases p <;> rfl
  · cases p
    · exact hfill.symm
    · exact hfill64.symm

end

/-! ## Cases -/

namespace ExType
open ExTiles

/-- The case of `C144_astype`: the tiles of the case of C106, converted to 32 bits. -/
example (args : RdArgs Toy) : rdmdsAs (Target.of (fun x : Toy => x.bits.setWidth 32) args.fill) ExTiles.pf dir "T".toList args =
    (rdmds ExTiles.pf dir "T".toList args).map (Spec.each fun x : Toy => x.bits.setWidth 32) :=
  C144_astype _ _ _ _ args

def args7 : RdArgs Toy := { endian := .big, fill := ⟨7⟩ }

/-- The case of `C144_file_type`. -/
example : rdmds ExTiles.pf dir "T".toList args7 = (rdmdsAs (Target.same args7.fill) ExTiles.pf dir "T".toList args7).map (Spec.each Spec.value) :=
  C144_file_type _ _ _ args7 (by decide +kernel) (by decide +kernel) (by decide +kernel)

/-- What is read: doubles, as in the files. -/
example : (rdmdsAs (Target.same args7.fill) ExTiles.pf dir "T".toList args7).map (fun a => (a.shape, a.toList.take 4)) =
    .ok ([2, 2, 2, 3], [.double 100, .double 7, .double 200, .double 101]) := by decide +kernel

/-- The same tiles in files of singles. -/
def dir32 : MdsDir := ⟨dir.names,
  fun n => ((if n = name1 then "dimList = [ 3, 1, 1, 2, 1, 2,\n 2, 1, 2 ];\n" else "dimList = [ 3, 3, 3, 2, 1, 2,\n 2, 1, 2 ];\n") ++
    "dataprec = [ 'float32' ];\nnrecords = [ 2 ];\n").toList,
  fun n => (indices [2, 2, 2, 1]).flatMap fun i => itemBytes .f32 .big ((tile (if n = data1 then name1 else name2)).elem i)⟩

example : (rdmdsAs (Target.same args7.fill) ExTiles.pf dir32 "T".toList args7).map (fun a => (a.shape, a.toList.take 4)) =
    .ok ([2, 2, 2, 3], [.single 100, .single 7, .single 200, .single 101]) := by decide +kernel

example : rdmds ExTiles.pf dir32 "T".toList args7 = (rdmdsAs (Target.same args7.fill) ExTiles.pf dir32 "T".toList args7).map (Spec.each Spec.value) :=
  C144_file_type _ _ _ args7 (by decide +kernel) (by decide +kernel) (by decide +kernel)

end ExType

end SG
