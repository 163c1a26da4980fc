import Verif.Props.MdsMemmap
import Verif.Props.MdsIters
/-! # C140: files that do not belong together are not read together

Tiles and iterations are read with precision, number of records and dimensions of the first meta file (mds.py:339-372); the other meta files are
compared with it (374). -/

set_option linter.unusedSectionVars false
namespace SG
variable {F : Type} [PyFloat F]

namespace Spec

/-- The same number, or the same text. -/
def SameItem : Val F → Val F → Prop
  | .int a, .int b => a = b
  | .str a, .str b => a = b
  | .flt a, .flt b => PyFloat.le a b = true ∧ PyFloat.le b a = true
  | _, _ => False

/-- The same entry of two dictionaries, or none in both. -/
def SameEntry : Option (List (Val F)) → Option (List (Val F)) → Prop
  | none, none => True
  | some l, some m => l.length = m.length ∧ ∀ (i : Nat) (x y : Val F), l[i]? = some x → m[i]? = some y → SameItem x y
  | _, _ => False

/-- Two meta files of one data set: the same entries, except for those of the single file (`ownKeys`), and the same global sizes; these are
every third number of `dimList`, counted from the end. -/
def Compatible (pf : Text → Py F) (d : MdsDir) (n m : Text) : Prop :=
  ∃ e e' : Dict F, parsemeta pf (d.text n) = .ok e ∧ parsemeta pf (d.text m) = .ok e' ∧
    (∀ k, k ∉ ownKeys → SameEntry (e.get k) (e'.get k)) ∧
    ∃ l l' : List (Val F), e.get "dimList".toList = some l ∧ e'.get "dimList".toList = some l' ∧ ∀ i : Nat, l.reverse[3 * i + 2]? = l'.reverse[3 * i + 2]?

/-- The iterations a call asks for. -/
def Requested (d : MdsDir) (fname : Text) : Itrs → Option Nat → Prop
  | .noItr, it => it = none
  | .one n, it => it = some n
  | .many l, it => ∃ n ∈ l, it = some n
  | .all, it => ∃ n, OnDisk d fname n ∧ it = some n
  | .last, it => ∃ n, OnDisk d fname n ∧ (∀ m, OnDisk d fname m → m ≤ n) ∧ it = some n

/-- Two entries that are different beyond doubt: one is missing, the lengths differ, or somewhere there are two integers or two texts that
differ, or a text and a number. -/
def Differ : Option (List (Val F)) → Option (List (Val F)) → Prop
  | none, none => False
  | some l, some m => l.length ≠ m.length ∨ ∃ (i : Nat) (x y : Val F), l[i]? = some x ∧ m[i]? = some y ∧
      match x, y with
      | .int a, .int b => a ≠ b
      | .str a, .str b => a ≠ b
      | .str _, _ => True
      | _, .str _ => True
      | _, _ => False
  | _, _ => True

end Spec

/-! ## Dictionaries -/

theorem sameVals_iff (l m : List (Val F)) : sameVals l m = true → l.length = m.length ∧ ∀ (i : Nat) (x y : Val F), l[i]? = some x → m[i]? = some y → Spec.SameItem x y := by
  induction l generalizing m with
  | nil =>
    cases m with
    | nil => exact fun _ => ⟨rfl, fun i x y h => by simp at h⟩
    | cons b m => intro h; cases h
  | cons a l ih =>
    cases m with
    | nil => intro h; cases h
    | cons b m =>
      intro h
      have h : (a.same b && sameVals l m) = true := h
      rw [Bool.and_eq_true] at h
      obtain ⟨h1, h2⟩ := ih m h.2
      refine ⟨by simp [h1], fun i x y hx hy => ?_⟩
      cases i with
      | succ i => exact h2 i x y (by simpa using hx) (by simpa using hy)
      | zero =>
        have hx : a = x := by simpa using hx
        have hy : b = y := by simpa using hy
        subst hx hy
        have h := h.1
        cases a <;> cases b <;> simp_all [Val.same, Spec.SameItem]

theorem Dict.same_get {d e : Dict F} (hd : d.Ok) (h : d.same e = true) (k : Text) : Spec.SameEntry (e.get k) (d.get k) := by
  unfold Dict.same at h
  rw [Bool.and_eq_true, decide_eq_true_eq, List.all_eq_true] at h
  obtain ⟨hlen, hall⟩ := h
  have hsym : ∀ {l m : List (Val F)}, (l.length = m.length ∧ ∀ (i : Nat) (x y : Val F), l[i]? = some x → m[i]? = some y → Spec.SameItem x y) →
      (m.length = l.length ∧ ∀ (i : Nat) (x y : Val F), m[i]? = some x → l[i]? = some y → Spec.SameItem x y) := by
    rintro l m ⟨h1, h2⟩
    refine ⟨h1.symm, fun i x y hx hy => ?_⟩
    have := h2 i y x hy hx
    cases x <;> cases y <;> simp_all [Spec.SameItem]
  have fwd : ∀ k v, d.get k = some v → ∃ w, e.get k = some w ∧ sameVals v w = true := by
    intro k v hv
    have := hall _ (Dict.mem_of_get hv)
    dsimp only at this
    cases hw : e.get k with
    | none => rw [hw] at this; cases this
    | some w => rw [hw] at this; exact ⟨w, rfl, this⟩
  cases hk : d.get k with
  | some v =>
    obtain ⟨w, hw, hs⟩ := fwd k v hk
    rw [hw]
    exact hsym (sameVals_iff _ _ hs)
  | none =>
    cases hek : e.get k with
    | none => trivial
    | some w =>
      exfalso
      have hsub : ∀ x ∈ k :: d.map (·.1), x ∈ e.map (·.1) := by
        intro x hx
        rcases List.mem_cons.1 hx with rfl | hx
        · exact List.mem_map.2 ⟨_, Dict.mem_of_get hek, rfl⟩
        · obtain ⟨y, hy, rfl⟩ := List.mem_map.1 hx
          obtain ⟨w, hw, -⟩ := fwd _ _ (Dict.get_mem hd hy)
          exact List.mem_map.2 ⟨_, Dict.mem_of_get hw, rfl⟩
      have hnd : (k :: d.map (·.1)).Nodup := by
        refine List.nodup_cons.2 ⟨fun hx => ?_, hd⟩
        obtain ⟨y, hy, rfl⟩ := List.mem_map.1 hx
        rw [Dict.get_mem hd hy] at hk; cases hk
      have := nodup_length_le hnd hsub
      simp only [List.length_cons, List.length_map] at this
      omega

/-! ## One meta file -/

theorem every3_get {α : Type} : ∀ (l : List α) (k i : Nat), (every3 k l)[i]? = l[3 * i + k]?
  | [], k, i => by simp [every3]
  | a :: l, 0, 0 => by simp [every3]
  | a :: l, 0, i + 1 => by
    show (every3 2 l)[i]? = _
    rw [every3_get l 2 i, show 3 * (i + 1) + 0 = (3 * i + 2) + 1 from by omega, List.getElem?_cons_succ]
  | a :: l, k + 1, i => by
    show (every3 k l)[i]? = _
    rw [every3_get l k i, show 3 * i + (k + 1) = (3 * i + k) + 1 from by omega, List.getElem?_cons_succ]

theorem asInts_map {l : List (Val F)} {z : List Int} (h : asInts l = .ok z) : l = z.map .int := by
  induction l generalizing z with
  | nil => cases h; rfl
  | cons a l ih =>
    unfold asInts at h
    rw [List.mapM_cons] at h
    obtain ⟨x, hx, h⟩ := bind_ok_inv h
    obtain ⟨y, hy, h⟩ := bind_ok_inv h
    cases h
    rw [List.map_cons, ← ih hy]
    cases a with
    | int z => cases hx; rfl
    | _ => cases hx

theorem readmeta_inv {pf : Text → Py F} {t : Text} {m : TileMeta F} (h : readmeta pf t = .ok m) : ∃ (e : Dict F) (l : List Int), parsemeta pf t = .ok e ∧
    e.get "dimList".toList = some (l.map .int) ∧ m.rest.Ok ∧ m.rest.get "dimList".toList = some ((every3 2 l.reverse).reverse.map .int) ∧
    ∀ k, k ∉ Spec.ownKeys → m.rest.get k = e.get k := by
  unfold readmeta at h
  obtain ⟨e, he, h⟩ := bind_ok_inv h
  cases hd : e.get "dimList".toList with
  | none => rw [hd] at h; cases h
  | some l =>
    rw [hd] at h
    obtain ⟨z, hz, h⟩ := bind_ok_inv h
    cases h
    refine ⟨e, z, he, by rw [hd, asInts_map hz], ?_, ?_, ?_⟩
    · exact Dict.Ok.put ((((parsemeta_ok he).del _).del _).del _ |>.del _) _ _
    · rw [Dict.get_put, if_pos rfl]
    · intro k hk
      unfold Spec.ownKeys at hk
      simp only [List.mem_cons, List.not_mem_nil, or_false, not_or] at hk
      rw [Dict.get_put, if_neg hk.1, Dict.get_del, if_neg hk.2.2.2, Dict.get_del, if_neg hk.2.2.1, Dict.get_del, if_neg hk.2.1, Dict.get_del, if_neg hk.1]

theorem compatible_of_same {pf : Text → Py F} {d : MdsDir} {n n0 : Text} {m m0 : TileMeta F} (h : readmeta pf (d.text n) = .ok m)
    (h0 : readmeta pf (d.text n0) = .ok m0) (hs : m.rest.same m0.rest = true) : Spec.Compatible pf d n0 n := by
  obtain ⟨e, l, p1, p2, p3, p4, p5⟩ := readmeta_inv h
  obtain ⟨e0, l0, q1, q2, q3, q4, q5⟩ := readmeta_inv h0
  have key := Dict.same_get p3 hs
  refine ⟨e0, e, q1, p1, fun k hk => ?_, _, _, q2, p2, fun i => ?_⟩
  · have := key k
    rwa [q5 k hk, p5 k hk] at this
  · have := key "dimList".toList
    rw [q4, p4] at this
    obtain ⟨hlen, hall⟩ := this
    have heq : every3 2 l0.reverse = every3 2 l.reverse := by
      apply List.reverse_inj.1
      apply List.ext_getElem?
      intro i
      have hlen : (every3 2 l0.reverse).reverse.length = (every3 2 l.reverse).reverse.length := by simpa using hlen
      cases hx : (every3 2 l0.reverse).reverse[i]? with
      | none =>
        have := List.getElem?_eq_none_iff.1 hx
        exact (List.getElem?_eq_none_iff.2 (by omega)).symm
      | some x =>
        have hi := (List.getElem?_eq_some_iff.1 hx).1
        have hy : (every3 2 l.reverse).reverse[i]? = some ((every3 2 l.reverse).reverse[i]'(by omega)) := List.getElem?_eq_getElem _
        have : Spec.SameItem (F := F) (.int x) (.int _) := hall i _ _ (by rw [List.getElem?_map, hx]; rfl) (by rw [List.getElem?_map, hy]; rfl)
        rw [hy]
        exact congrArg some this
    rw [← List.map_reverse, ← List.map_reverse, List.getElem?_map, List.getElem?_map, ← every3_get, ← every3_get, heq]

/-! ## The loops -/

/-- A meta file was read: the first, or one that agrees with the first. -/
def Took (pf : Text → Py F) (names : List Text) (text : Text → Text) (st : Option (RdState F)) (f : Text) (st' : Option (RdState F)) : Prop :=
  ∃ m s', st' = some s' ∧ f ∈ names ∧ readmeta pf (text f) = .ok m ∧
    ((st = none ∧ s'.metaref = m.rest) ∨ ∃ s, st = some s ∧ s'.metaref = s.metaref ∧ m.rest.same s.metaref = true)

/-- After the meta files `S`. -/
def Read (pf : Text → Py F) (names : List Text) (text : Text → Text) (S : List Text) : Option (RdState F) → Prop
  | none => S = []
  | some s => ∃ n0 ∈ S, ∃ m0, n0 ∈ names ∧ readmeta pf (text n0) = .ok m0 ∧ s.metaref = m0.rest ∧
      ∀ n ∈ S, n = n0 ∨ ∃ m, readmeta pf (text n) = .ok m ∧ m.rest.same m0.rest = true

theorem Read.step {pf : Text → Py F} {names : List Text} {text : Text → Text} {S : List Text} {st st' : Option (RdState F)} {f : Text}
    (h : Read pf names text S st) (ht : Took pf names text st f st') : Read pf names text (S ++ [f]) st' := by
  obtain ⟨m, s', rfl, hf, hm, ⟨rfl, hr⟩ | ⟨s, rfl, hr, hs⟩⟩ := ht
  · refine ⟨f, by simp, m, hf, hm, hr, fun n hn => .inl ?_⟩
    have h : S = [] := h
    simpa [h] using hn
  · obtain ⟨n0, h0, m0, g1, g2, g3, g4⟩ := h
    refine ⟨n0, by simp [h0], m0, g1, g2, hr.trans g3, fun n hn => ?_⟩
    rcases List.mem_append.1 hn with hn | hn
    · exact g4 n hn
    · have : n = f := by simpa using hn
      rw [this]
      exact .inr ⟨m, hm, g3 ▸ hs⟩

theorem initState_ref {args : RdArgs F} {nit : Nat} {m : TileMeta F} {s : RdState F} (h : initState args nit m = .ok s) : s.metaref = m.rest := by
  have bnd : ∀ {α : Type} {x : Py α} {f : α → Py (RdState F)}, (∀ a s, f a = .ok s → s.metaref = m.rest) → ∀ s, (x >>= f) = .ok s → s.metaref = m.rest := by
    intro α x f hf s hs
    obtain ⟨a, -, h⟩ := bind_ok_inv hs
    exact hf a s h
  suffices H : ∀ s, initState args nit m = .ok s → s.metaref = m.rest from H s h
  clear h
  unfold initState
  extract_lets dims middle jp
  have hj : ∀ v s, jp v = .ok s → s.metaref = m.rest := by
    intro v
    refine bnd fun prec => ?_
    extract_lets jp2
    have hj2 : ∀ v s, jp2 v = .ok s → s.metaref = m.rest := by
      intro v
      refine bnd fun recshape => ?_
      extract_lets jp4 jp3
      have hj4 : ∀ v s, jp4 v = .ok s → s.metaref = m.rest := by
        intro v
        dsimp only [jp4]
        refine bnd fun gx => bnd fun gy => ?_
        split
        · refine bnd fun _ => bnd fun mid => bnd fun ny => bnd fun nx => ?_
          intro s h
          cases h
          rfl
        · refine bnd fun mid => bnd fun ny => bnd fun nx => ?_
          intro s h
          cases h
          rfl
      have hj3 : ∀ v s, jp3 v = .ok s → s.metaref = m.rest := by
        intro v
        unfold jp3
        split <;> exact bnd hj4
      split <;> exact bnd hj3
    split
    · exact bnd hj2
    · exact hj2 ()
  split
  · exact bnd hj
  · split <;> exact bnd hj

theorem stateFor_took {pf : Text → Py F} {d : MdsDir} {args : RdArgs F} {nit : Nat} {st : Option (RdState F)} {f t : Text} {m : TileMeta F}
    {s : RdState F} (ht : d.openText f = .ok t) (hm : readmeta pf t = .ok m) (h : stateFor args nit st m = .ok s) (arr : NdArr F) :
    Took pf d.names d.text st f (some { s with arr := arr }) := by
  unfold MdsDir.openText at ht
  by_cases hf : f ∈ d.names
  · rw [if_pos hf] at ht
    cases ht
    refine ⟨m, _, rfl, hf, hm, ?_⟩
    unfold stateFor at h
    cases st with
    | none =>
      have h : initState args nit m = .ok s := h
      have := initState_ref h
      exact .inl ⟨rfl, this⟩
    | some s0 =>
      dsimp only at h
      by_cases hs : m.rest.same s0.metaref = true
      · rw [if_pos hs] at h; cases h
        exact .inr ⟨_, rfl, rfl, hs⟩
      · rw [if_neg hs] at h; cases h
  · rw [if_neg hf] at ht; cases ht

theorem tileStep_took [F64 F] [F32 F] {pf : Text → Py F} {d : MdsDir} {args : RdArgs F} {nit iit : Nat} {st st' : Option (RdState F)} {f : Text}
    (h : tileStep pf d args nit iit st f = .ok st') : Took pf d.names d.text st f st' := by
  unfold tileStep at h
  obtain ⟨t, ht, h⟩ := bind_ok_inv h
  obtain ⟨m, hm, h⟩ := bind_ok_inv h
  obtain ⟨s, hs, h⟩ := bind_ok_inv h
  obtain ⟨x, -, h⟩ := bind_ok_inv h
  obtain ⟨pl, -, h⟩ := bind_ok_inv h
  obtain ⟨arr, -, h⟩ := bind_ok_inv h
  cases h
  exact stateFor_took ht hm hs arr

theorem tiles_read [F64 F] [F32 F] {pf : Text → Py F} {d : MdsDir} {args : RdArgs F} {nit iit : Nat} (l : List Text) {st st' : Option (RdState F)}
    {S : List Text} (hS : Read pf d.names d.text S st) (h : l.foldlM (tileStep pf d args nit iit) st = .ok st') : Read pf d.names d.text (S ++ l) st' := by
  induction l generalizing st S with
  | nil => cases h; simpa using hS
  | cons f l ih =>
    rw [List.foldlM_cons] at h
    obtain ⟨st1, h1, h⟩ := bind_ok_inv h
    have := ih (hS.step (tileStep_took h1)) h
    simpa using this

theorem itrs_read [F64 F] [F32 F] {pf : Text → Py F} {d : MdsDir} {fname : Text} {args : RdArgs F} {nit : Nat} (l : List (Option Nat × Nat))
    {st st' : Option (RdState F)} {S : List Text} (hS : Read pf d.names d.text S st) (h : l.foldlM (itrStep pf d fname args nit) st = .ok st') :
    Read pf d.names d.text (S ++ l.flatMap fun x => d.metafiles (nameOf fname x.1)) st' ∧ ∀ x ∈ l, d.metafiles (nameOf fname x.1) ≠ [] := by
  induction l generalizing st S with
  | nil => cases h; exact ⟨by simpa using hS, fun x hx => by cases hx⟩
  | cons x l ih =>
    rw [List.foldlM_cons] at h
    obtain ⟨st1, h1, h⟩ := bind_ok_inv h
    have hne : d.metafiles (nameOf fname x.1) ≠ [] ∧ (d.metafiles (nameOf fname x.1)).foldlM (tileStep pf d args nit x.2) st = .ok st1 := by
      obtain ⟨it, i⟩ := x
      have h1 : (match d.metafiles (nameOf fname it) with
        | [] => (.error .ioError : Py (Option (RdState F)))
        | files => files.foldlM (tileStep pf d args nit i) st) = .ok st1 := by
        cases it <;> exact h1
      cases hf : d.metafiles (nameOf fname it) with
      | nil => rw [hf] at h1; cases h1
      | cons f fs => rw [hf] at h1; exact ⟨by simp, h1⟩
    obtain ⟨i1, i2⟩ := ih (tiles_read _ hS hne.2) h
    refine ⟨by simpa using i1, fun y hy => ?_⟩
    rcases List.mem_cons.1 hy with rfl | hy
    · exact hne.1
    · exact i2 y hy

/-! ## The same with memory maps -/

theorem memmap_texts (d : MdsDir) (n : Text) (need : Nat) : (d.memmap n need).1.names = d.names ∧ (d.memmap n need).1.text = d.text := by
  unfold MdsDir.memmap
  split
  · dsimp only
    split
    · exact ⟨rfl, rfl⟩
    · split <;> exact ⟨rfl, rfl⟩
  · exact ⟨rfl, rfl⟩

theorem tileStepMm_took [F64 F] [F32 F] {pf : Text → Py F} {d d' : MdsDir} {args : RdArgs F} {nit iit : Nat} {st st' : Option (RdState F)} {f : Text}
    (h : tileStepMm pf args nit iit d st f = (d', .ok st')) : Took pf d.names d.text st f st' ∧ d'.names = d.names ∧ d'.text = d.text := by
  unfold tileStepMm at h
  cases hh : tileHead pf d args nit st f with
  | error e => rw [hh] at h; cases h
  | ok x =>
    rw [hh] at h
    obtain ⟨s, pl, src, df⟩ := x
    have took : ∀ arr, Took pf d.names d.text st f (some { s with arr := arr }) := by
      unfold tileHead at hh
      obtain ⟨t, ht, hh⟩ := bind_ok_inv hh
      obtain ⟨m, hm, hh⟩ := bind_ok_inv hh
      obtain ⟨s1, hs, hh⟩ := bind_ok_inv hh
      obtain ⟨x, -, hh⟩ := bind_ok_inv hh
      obtain ⟨pl, -, hh⟩ := bind_ok_inv hh
      cases hh
      exact stateFor_took ht hm hs
    dsimp only at h
    split at h
    · obtain ⟨e1, e2⟩ := Prod.mk.inj h
      obtain ⟨bs, -, e2⟩ := bind_ok_inv e2
      obtain ⟨arr, -, e2⟩ := bind_ok_inv e2
      cases e2
      rw [← e1]
      exact ⟨took arr, memmap_texts _ _ _⟩
    · cases h
      exact ⟨took s.arr, rfl, rfl⟩

theorem tilesMm_read [F64 F] [F32 F] {pf : Text → Py F} {args : RdArgs F} {nit iit : Nat} (l : List Text) {d d' : MdsDir} {st st' : Option (RdState F)}
    {S : List Text} (hS : Read pf d.names d.text S st) (h : dirFold (tileStepMm pf args nit iit) d st l = (d', .ok st')) :
    Read pf d.names d.text (S ++ l) st' ∧ d'.names = d.names ∧ d'.text = d.text := by
  induction l generalizing st S d with
  | nil => cases h; exact ⟨by simpa using hS, rfl, rfl⟩
  | cons f l ih =>
    unfold dirFold at h
    split at h
    · cases h
    · rename_i d1 st1 h1
      obtain ⟨t, e1, e2⟩ := tileStepMm_took h1
      have hS1 := hS.step t
      rw [← e1, ← e2] at hS1
      obtain ⟨i1, i2, i3⟩ := ih hS1 h
      rw [e1, e2] at i1
      exact ⟨by simpa using i1, i2.trans e1, i3.trans e2⟩

theorem metafiles_names {d d' : MdsDir} (h : d'.names = d.names) (name : Text) : d'.metafiles name = d.metafiles name := by
  unfold MdsDir.metafiles
  rw [h]

theorem itrsMm_read [F64 F] [F32 F] {pf : Text → Py F} {fname : Text} {args : RdArgs F} {nit : Nat} (l : List (Option Nat × Nat)) {d d' : MdsDir}
    {st st' : Option (RdState F)} {S : List Text} (hS : Read pf d.names d.text S st) (h : dirFold (itrStepMm pf fname args nit) d st l = (d', .ok st')) :
    Read pf d.names d.text (S ++ l.flatMap fun x => d.metafiles (nameOf fname x.1)) st' ∧ ∀ x ∈ l, d.metafiles (nameOf fname x.1) ≠ [] := by
  induction l generalizing st S d with
  | nil => cases h; exact ⟨by simpa using hS, fun x hx => by cases hx⟩
  | cons x l ih =>
    unfold dirFold at h
    split at h
    · cases h
    · rename_i d1 st1 h1
      have hne : d.metafiles (nameOf fname x.1) ≠ [] ∧ dirFold (tileStepMm pf args nit x.2) d st (d.metafiles (nameOf fname x.1)) = (d1, .ok st1) := by
        obtain ⟨it, i⟩ := x
        have h1 : (match d.metafiles (nameOf fname it) with
          | [] => (d, .error .ioError)
          | files => dirFold (tileStepMm pf args nit i) d st files) = (d1, .ok st1) := by
          cases it <;> exact h1
        cases hf : d.metafiles (nameOf fname it) with
        | nil => rw [hf] at h1; cases h1
        | cons f fs => rw [hf] at h1; exact ⟨by simp, h1⟩
      obtain ⟨t, e1, e2⟩ := tilesMm_read _ hS hne.2
      rw [← e1, ← e2] at t
      obtain ⟨i1, i2⟩ := ih t h
      simp only [metafiles_names e1] at i1 i2
      rw [e1, e2] at i1
      refine ⟨by simpa using i1, fun y hy => ?_⟩
      rcases List.mem_cons.1 hy with rfl | hy
      · exact hne.1
      · exact i2 y hy

/-! ## The property -/

theorem requested_mem {d : MdsDir} {fname : Text} (hd : d.names.Nodup) {its : Itrs} {it : Option Nat} (h : Spec.Requested d fname its it) : it ∈ itrsOf d fname its := by
  obtain ⟨hsort, hmem⟩ := scan_spec d fname hd
  cases its with
  | noItr => cases h; simp [itrsOf]
  | one n => cases h; simp [itrsOf]
  | many l => obtain ⟨n, hn, rfl⟩ := h; exact List.mem_map.2 ⟨n, hn, rfl⟩
  | all => obtain ⟨n, hn, rfl⟩ := h; exact List.mem_map.2 ⟨n, (hmem n).2 hn, rfl⟩
  | last =>
    obtain ⟨n, hn, hmax, rfl⟩ := h
    refine List.mem_map.2 ⟨n, ?_, rfl⟩
    have hn := (hmem n).2 hn
    have hmax : ∀ m ∈ d.scan fname, m ≤ n := fun m hm => hmax m ((hmem m).1 hm)
    generalize d.scan fname = l at hsort hn hmax
    obtain ⟨i, hi, rfl⟩ := List.mem_iff_getElem.1 hn
    have hlast : i = l.length - 1 := by
      rcases Nat.lt_or_ge i (l.length - 1) with h | h
      · exfalso
        have h1 := List.pairwise_iff_getElem.1 hsort i (l.length - 1) hi (by omega) h
        have h2 := hmax _ (List.getElem_mem (l := l) (n := l.length - 1) (by omega))
        omega
      · omega
    refine List.mem_iff_getElem.2 ⟨0, by rw [List.length_drop]; omega, ?_⟩
    rw [List.getElem_drop]
    congr 1
    omega

theorem read_compatible {pf : Text → Py F} {d : MdsDir} {fname : Text} {its : List (Option Nat)} {st : Option (RdState F)}
    (h : Read pf d.names d.text ([] ++ its.zipIdx.flatMap fun x => d.metafiles (nameOf fname x.1)) st)
    (hne : ∀ x ∈ its.zipIdx, d.metafiles (nameOf fname x.1) ≠ []) (hits : its ≠ []) :
    ∃ n0, (∃ it ∈ its, Spec.Found d (nameOf fname it) n0) ∧ ∀ it ∈ its, (∃ n, Spec.Found d (nameOf fname it) n) ∧
      ∀ n, Spec.Found d (nameOf fname it) n → n = n0 ∨ Spec.Compatible pf d n0 n := by
  have hz : ∀ it, it ∈ its ↔ ∃ i, (it, i) ∈ its.zipIdx := by
    intro it
    constructor
    · intro hit
      obtain ⟨i, hi, e⟩ := List.mem_iff_getElem.1 hit
      exact ⟨i, List.mem_zipIdx_iff_getElem?.2 (by rw [List.getElem?_eq_getElem hi, e])⟩
    · rintro ⟨i, hi⟩
      exact List.mem_of_getElem? (List.mem_zipIdx_iff_getElem?.1 hi)
  have hmem : ∀ n, n ∈ ([] ++ its.zipIdx.flatMap fun x => d.metafiles (nameOf fname x.1)) ↔ ∃ it ∈ its, Spec.Found d (nameOf fname it) n := by
    intro n
    rw [List.nil_append, List.mem_flatMap]
    constructor
    · rintro ⟨x, hx, hn⟩
      exact ⟨x.1, (hz _).2 ⟨x.2, hx⟩, mem_metafiles.1 hn⟩
    · rintro ⟨it, hit, hn⟩
      obtain ⟨i, hi⟩ := (hz it).1 hit
      exact ⟨_, hi, mem_metafiles.2 hn⟩
  have some1 : ∀ it ∈ its, ∃ n, Spec.Found d (nameOf fname it) n := by
    intro it hit
    obtain ⟨i, hi⟩ := (hz it).1 hit
    obtain ⟨n, hn⟩ := List.exists_mem_of_ne_nil _ (hne _ hi)
    exact ⟨n, mem_metafiles.1 hn⟩
  cases st with
  | none =>
    exfalso
    obtain ⟨it, hit⟩ := List.exists_mem_of_ne_nil _ hits
    obtain ⟨n, hn⟩ := some1 it hit
    have h : _ = [] := h
    have := (hmem n).2 ⟨it, hit, hn⟩
    rw [h] at this; cases this
  | some s =>
    obtain ⟨n0, h0, m0, -, hm0, -, hall⟩ := h
    refine ⟨n0, (hmem n0).1 h0, fun it hit => ⟨some1 it hit, fun n hn => ?_⟩⟩
    rcases hall n ((hmem n).2 ⟨it, hit, hn⟩) with rfl | ⟨m, hm, hs⟩
    · exact .inl rfl
    · exact .inr (compatible_of_same hm hm0 hs)

/-- C140: if `rdmds` returns, with or without memory maps, then there are meta files for each iteration asked for, and all of them agree with the first
one read, in all entries but those of the single file, and in the global sizes. -/
theorem C140_one_data_set [F64 F] [F32 F] (pf : Text → Py F) (d : MdsDir) (fname : Text) (args : RdArgs F) (hd : d.names.Nodup)
    (h : (∃ a, rdmds pf d fname args = .ok a) ∨ ∃ a, (rdmdsMm pf d fname args).2 = .ok a) (hask : ∃ it, Spec.Requested d fname args.itrs it) :
    ∃ n0, ∀ it, Spec.Requested d fname args.itrs it → (∃ n, Spec.Found d (nameOf fname it) n) ∧
      ∀ n, Spec.Found d (nameOf fname it) n → n = n0 ∨ Spec.Compatible pf d n0 n := by
  have hne : itrsOf d fname args.itrs ≠ [] := by
    obtain ⟨it, hit⟩ := hask
    exact List.ne_nil_of_mem (requested_mem hd hit)
  suffices hs : ∃ n0, (∃ it ∈ itrsOf d fname args.itrs, Spec.Found d (nameOf fname it) n0) ∧ ∀ it ∈ itrsOf d fname args.itrs, (∃ n, Spec.Found d (nameOf fname it) n) ∧
      ∀ n, Spec.Found d (nameOf fname it) n → n = n0 ∨ Spec.Compatible pf d n0 n by
    obtain ⟨n0, -, hs⟩ := hs
    exact ⟨n0, fun it hit => hs it (requested_mem hd hit)⟩
  rcases h with ⟨a, h⟩ | ⟨a, h⟩
  · unfold rdmds at h
    obtain ⟨st, h1, -⟩ := bind_ok_inv h
    obtain ⟨r1, r2⟩ := itrs_read _ (S := []) (show Read pf d.names d.text [] none from rfl) h1
    exact read_compatible r1 r2 hne
  · unfold rdmdsMm at h
    dsimp only at h
    obtain ⟨st, h1, -⟩ := bind_ok_inv h
    obtain ⟨r1, r2⟩ := itrsMm_read _ (S := []) (show Read pf d.names d.text [] none from rfl) (Prod.ext rfl h1)
    exact read_compatible r1 r2 hne

theorem differ_not_same {a b c : Option (List (Val F))} (h : Spec.Differ a b) (h1 : a = c ∨ Spec.SameEntry c a) (h2 : b = c ∨ Spec.SameEntry c b) : False := by
  rcases h1 with rfl | h1 <;> rcases h2 with rfl | h2
  · cases b with
    | none => exact h
    | some l =>
      rcases h with h | ⟨i, x, y, hx, hy, h⟩
      · exact h rfl
      · rw [hx] at hy; cases hy
        cases x <;> simp_all
  · cases a <;> cases b <;> simp only [Spec.Differ, Spec.SameEntry] at h h2
    rcases h with h | ⟨i, x, y, hx, hy, h⟩
    · exact h h2.1
    · have := h2.2 i x y hx hy
      cases x <;> cases y <;> simp_all [Spec.SameItem]
  · cases a <;> cases b <;> simp only [Spec.Differ, Spec.SameEntry] at h h1
    rcases h with h | ⟨i, x, y, hx, hy, h⟩
    · exact h h1.1.symm
    · have := h1.2 i y x hy hx
      cases x <;> cases y <;> simp_all [Spec.SameItem]
  · cases a <;> cases b <;> cases c <;> simp only [Spec.Differ, Spec.SameEntry] at h h1 h2
    rename_i l m r
    rcases h with h | ⟨i, x, y, hx, hy, h⟩
    · exact h (h1.1.symm.trans h2.1)
    · have hi := (List.getElem?_eq_some_iff.1 hx).1
      have hz : r[i]? = some (r[i]'(by omega)) := List.getElem?_eq_getElem _
      have e1 := h1.2 i _ x hz hx
      have e2 := h2.2 i _ y hz hy
      generalize r[i]'(by omega) = z at e1 e2
      cases x <;> cases y <;> cases z <;> simp_all [Spec.SameItem]

/-- C140: two meta files of the iterations asked for with different precision, number of records or other common entry: the call raises. -/
theorem C140_mixed_files_raise [F64 F] [F32 F] (pf : Text → Py F) (d : MdsDir) (fname : Text) (args : RdArgs F) (hd : d.names.Nodup)
    (it it' : Option Nat) (hit : Spec.Requested d fname args.itrs it) (hit' : Spec.Requested d fname args.itrs it') (n n' : Text)
    (hn : Spec.Found d (nameOf fname it) n) (hn' : Spec.Found d (nameOf fname it') n') (e e' : Dict F) (he : parsemeta pf (d.text n) = .ok e)
    (he' : parsemeta pf (d.text n') = .ok e') (k : Text) (hk : k ∉ Spec.ownKeys) (hdiff : Spec.Differ (e.get k) (e'.get k)) :
    (∃ x, rdmds pf d fname args = .error x) ∧ ∃ x, (rdmdsMm pf d fname args).2 = .error x := by
  have key : ¬ ((∃ a, rdmds pf d fname args = .ok a) ∨ ∃ a, (rdmdsMm pf d fname args).2 = .ok a) := by
    intro h
    obtain ⟨n0, hall⟩ := C140_one_data_set pf d fname args hd h ⟨it, hit⟩
    have one : ∀ {m : Text} {f : Dict F}, parsemeta pf (d.text m) = .ok f → (m = n0 ∨ Spec.Compatible pf d n0 m) →
        ∀ f0, parsemeta pf (d.text n0) = .ok f0 → f.get k = f0.get k ∨ Spec.SameEntry (f0.get k) (f.get k) := by
      rintro m f hf (rfl | ⟨c, c', hc, hc', hall, -⟩) f0 hf0
      · rw [hf] at hf0; cases hf0; exact .inl rfl
      · rw [hf0] at hc; cases hc
        rw [hf] at hc'; cases hc'
        exact .inr (hall k hk)
    have ex0 : ∃ f0, parsemeta pf (d.text n0) = .ok f0 := by
      rcases (hall it hit).2 n hn with rfl | ⟨c, _, hc, -⟩
      · exact ⟨e, he⟩
      · exact ⟨c, hc⟩
    obtain ⟨f0, hf0⟩ := ex0
    exact differ_not_same hdiff (one he ((hall it hit).2 n hn) f0 hf0) (one he' ((hall it' hit').2 n' hn') f0 hf0)
  constructor
  · cases h : rdmds pf d fname args with
    | ok a => exact absurd (.inl ⟨a, h⟩) key
    | error x => exact ⟨x, rfl⟩
  · cases h : (rdmdsMm pf d fname args).2 with
    | ok a => exact absurd (.inr ⟨a, h⟩) key
    | error x => exact ⟨x, rfl⟩

/-! ## Cases -/

namespace ExCompat

open ExTiles (pf name1 name2 text1 text2)

/-- The two tiles of `ExTiles` agree. -/
example : ∃ n0, ∀ it, Spec.Requested ExTiles.dir "T".toList .noItr it → (∃ n, Spec.Found ExTiles.dir (nameOf "T".toList it) n) ∧
    ∀ n, Spec.Found ExTiles.dir (nameOf "T".toList it) n → n = n0 ∨ Spec.Compatible pf ExTiles.dir n0 n := by
  have h : ∃ a : NdArr Toy, rdmds pf ExTiles.dir "T".toList { endian := .big, fill := ⟨7⟩ } = .ok a := by
    have hd : (match rdmds pf ExTiles.dir "T".toList { endian := .big, fill := ⟨7⟩ } with | .ok _ => true | .error _ => false) = true := by decide +kernel
    cases hr : rdmds pf ExTiles.dir "T".toList { endian := .big, fill := ⟨7⟩ } with
    | ok a => exact ⟨a, rfl⟩
    | error e => rw [hr] at hd; cases hd
  exact C140_one_data_set pf ExTiles.dir "T".toList { endian := .big, fill := ⟨7⟩ } (by decide +kernel) (.inl h) ⟨none, rfl⟩

/-- The second tile written in single precision, with as many bytes. -/
def single2 : Text := "dimList = [ 3, 3, 3, 2, 1, 2,\n 2, 1, 2 ];\ndataprec = [ 'float32' ];\nnrecords = [ 2 ];\n".toList

def mixed : MdsDir := { ExTiles.dir with text := fun n => if n = name1 then text1 else single2 }

example : (∃ x, rdmds pf mixed "T".toList { fill := ⟨7⟩ } = .error x) ∧ ∃ x, (rdmdsMm pf mixed "T".toList { fill := ⟨7⟩ }).2 = .error x :=
  C140_mixed_files_raise pf mixed "T".toList { fill := ⟨7⟩ } (by decide +kernel) none none rfl rfl name1 name2
    (mem_metafiles.1 (by decide +kernel)) (mem_metafiles.1 (by decide +kernel))
    (("dimList".toList, ExTiles.own1) :: [("dataprec".toList, [.str "float64".toList]), ("nrecords".toList, [.int 2])])
    (("dimList".toList, ExTiles.own2) :: [("dataprec".toList, [.str "float32".toList]), ("nrecords".toList, [.int 2])])
    (by decide +kernel) (by decide +kernel) "dataprec".toList (by decide +kernel)
    (by
      rw [show Dict.get (F := Toy) (("dimList".toList, ExTiles.own1) :: [("dataprec".toList, [.str "float64".toList]), ("nrecords".toList, [.int 2])]) "dataprec".toList =
          some [.str "float64".toList] by decide +kernel,
        show Dict.get (F := Toy) (("dimList".toList, ExTiles.own2) :: [("dataprec".toList, [.str "float32".toList]), ("nrecords".toList, [.int 2])]) "dataprec".toList =
          some [.str "float32".toList] by decide +kernel]
      exact .inr ⟨0, _, _, rfl, rfl, by decide +kernel⟩)

/-- Two values for missing data, the first smaller or larger than the second. -/
def numbers : Text → Py Toy := fun t => .ok (.ofInt t.length)

def withMissing (a b : String) : MdsDir := { ExTiles.dir with text := fun n => if n = name1 then text1 ++ ("missingValue = [ " ++ a ++ " ];\n").toList else text2 ++ ("missingValue = [ " ++ b ++ " ];\n").toList }

example : (rdmds numbers (withMissing "1.5" "1.25") "T".toList { fill := ⟨7⟩ }).map (fun a => a.shape) = .error .valueError ∧
    (rdmds numbers (withMissing "1.25" "1.5") "T".toList { fill := ⟨7⟩ }).map (fun a => a.shape) = .error .valueError ∧
    (rdmds numbers (withMissing "1.5" "2.5") "T".toList { fill := ⟨7⟩ }).map (fun a => a.shape) = .ok [2, 2, 2, 3] := by decide +kernel

end ExCompat

end SG
