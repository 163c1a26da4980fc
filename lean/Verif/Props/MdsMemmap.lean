import Verif.Lemmas.MdsMemmap
import Verif.Props.MdsData
/-! # Reading with `usememmap=True` (C106, C107) -/

set_option linter.unusedSectionVars false
namespace SG
variable {F : Type}

/-! ## Specification -/

namespace Spec

/-- `d'` is `d` except that data files may have been made longer by zero bytes. -/
def ZeroExtended (d d' : MdsDir) : Prop :=
  d'.names = d.names ∧ d'.text = d.text ∧ ∀ n, ∃ k, d'.data n = d.data n ++ List.replicate k (0 : Byte)

/-- No data file is empty. -/
def NoEmptyData (d : MdsDir) : Prop := ∀ n, n ++ "data".toList ∈ d.names → d.data (n ++ "data".toList) ≠ []

/-- The records asked for, counted from 0, are fewer than the meta files whose names begin with `fname` say there are. -/
def RecordsThere (pf : Text → Py F) (d : MdsDir) (fname : Text) (zs : List Int) : Prop :=
  ∀ n ∈ d.names, fname <+: n → ∀ (es : Dict F) (R : Int), parsemeta pf (d.text n) = .ok es → es.get "nrecords".toList = some [.int R] →
    ∀ z ∈ zs, z < R

end Spec

/-! ## One tile -/

theorem tileStep_head [PyFloat F] [F64 F] [F32 F] (pf : Text → Py F) (d : MdsDir) (args : RdArgs F) (nit iit : Nat) (st : Option (RdState F))
    (n : Text) : tileStep pf d args nit iit st n = (tileHead pf d args nit st n >>= fun x =>
      readTile args x.1 iit x.2.1 x.2.2.1 (fun _ => d.openData x.2.2.2) >>= fun arr => .ok (some { x.1 with arr := arr })) := by
  unfold tileStep tileHead
  cases d.openText n with
  | error e => rfl
  | ok text =>
    rw [Py.ok_bind, Py.ok_bind]
    cases readmeta pf text with
    | error e => rfl
    | ok m =>
      rw [Py.ok_bind, Py.ok_bind]
      cases stateFor args nit st m with
      | error e => rfl
      | ok st =>
        rw [Py.ok_bind, Py.ok_bind]
        cases regionOf args st.win m with
        | error e => rfl
        | ok r =>
          rw [Py.ok_bind, Py.ok_bind]
          dsimp only
          cases placeOf (st.arr.shape.drop 2) r.1 r.2.1 m.m2g with
          | error e => rfl
          | ok pl => rfl

/-- What is known of the state when records are chosen. -/
def RecState (args : RdArgs F) (st : RdState F) : Prop :=
  ∀ s, args.rec? = some s → st.recs = s.list ∧ ∀ z ∈ s.list, z < st.nrecords

/-- The end of `initState`. -/
def initEnd [PyFloat F] (args : RdArgs F) (nit : Nat) (m : TileMeta F) (prec : Prec) (recshape : List Nat) (nrecords : Nat) : Py (RdState F) := do
  let recs : List Int := match args.rec? with
    | none => (List.range nrecords).map (fun n : Nat => (n : Int))
    | some s => s.list
  let gx ← fromEnd m.gdims 0
  let gy ← fromEnd m.gdims 1
  let win := match args.region with
    | none => (0, gx, 0, gy)
    | some (ri0, rie, rj0, rje) =>
      (if ri0 < 0 then ri0 + gx else ri0, if rie < 0 then rie + gx else rie,
       if rj0 < 0 then rj0 + gy else rj0, if rje < 0 then rje + gy else rje)
  if ¬ (args.lev.length + 2 ≤ m.gdims.length) then throw .assertionError
  let middle := (m.gdims.take (m.gdims.length - 2)).drop args.lev.length
  let mid ← middle.mapM toSize
  let ny ← toSize (win.2.2.2 - win.2.2.1)
  let nx ← toSize (win.2.1 - win.1)
  let rdims := args.lev.map (fun l => l.list.length) ++ mid ++ [ny, nx]
  return ⟨prec, recshape, nrecords, recs, win, m.rest, ⟨nit :: recs.length :: rdims, fun _ => args.fill⟩⟩

theorem initEnd_inv [PyFloat F] {args : RdArgs F} {nit : Nat} {m : TileMeta F} {prec : Prec} {recshape : List Nat} {n : Nat} {st : RdState F}
    (h : initEnd args nit m prec recshape n = .ok st) : st.nrecords = n ∧ ∀ s, args.rec? = some s → st.recs = s.list := by
  unfold initEnd at h
  obtain ⟨gx, -, h⟩ := bind_ok_inv h
  obtain ⟨gy, -, h⟩ := bind_ok_inv h
  dsimp only at h
  by_cases hc : ¬ (args.lev.length + 2 ≤ m.gdims.length)
  · rw [if_pos hc] at h; cases h
  rw [if_neg hc] at h
  obtain ⟨mid, -, h⟩ := bind_ok_inv h
  obtain ⟨ny, -, h⟩ := bind_ok_inv h
  obtain ⟨nx, -, h⟩ := bind_ok_inv h
  injection h with h
  subst h
  refine ⟨rfl, ?_⟩
  intro s hs
  dsimp only
  rw [hs]

theorem initState_mk [PyFloat F] (args : RdArgs F) (nit : Nat) (m : TileMeta F) : initState args nit m =
    ((match m.rest.get "dataprec".toList with
      | some l => one? l
      | none => match m.rest.get "format".toList with
        | some l => one? l
        | none => .error .keyError) >>= fun v => precOf v >>= fun prec =>
      if List.zipWith (fun i0 ie => ie - i0) m.i0s m.ies = [] then (.error .typeError : Py (RdState F)) else
        (List.zipWith (fun i0 ie => ie - i0) m.i0s m.ies).mapM toSize >>= fun recshape =>
        match m.rest.get "nrecords".toList with
        | some l => one? l >>= fun nr => (match nr with | .int z => toSize z | _ => .error .typeError) >>= fun nrecords =>
          initEnd args nit m prec recshape nrecords
        | none => .error .keyError) := by
  have tail : ∀ (v : Val F), (do
      let prec ← precOf v
      let dims := List.zipWith (fun i0 ie => ie - i0) m.i0s m.ies
      if dims = [] then throw .typeError
      let recshape ← dims.mapM toSize
      let nr ← match m.rest.get "nrecords".toList with
        | some l => one? l
        | none => .error .keyError
      let nrecords ← match nr with
        | .int z => toSize z
        | _ => .error .typeError
      initEnd args nit m prec recshape nrecords) = (precOf v >>= fun prec =>
      if List.zipWith (fun i0 ie => ie - i0) m.i0s m.ies = [] then (.error .typeError : Py (RdState F)) else
        (List.zipWith (fun i0 ie => ie - i0) m.i0s m.ies).mapM toSize >>= fun recshape =>
        match m.rest.get "nrecords".toList with
        | some l => one? l >>= fun nr => (match nr with | .int z => toSize z | _ => .error .typeError) >>= fun nrecords =>
          initEnd args nit m prec recshape nrecords
        | none => .error .keyError) := by
    intro v
    cases precOf v with
    | error e => rfl
    | ok p =>
      rw [Py.ok_bind, Py.ok_bind]
      dsimp only
      by_cases hd : List.zipWith (fun i0 ie : Int => ie - i0) m.i0s m.ies = []
      · rw [if_pos hd, if_pos hd]; rfl
      · rw [if_neg hd, if_neg hd]
        cases (List.zipWith (fun i0 ie : Int => ie - i0) m.i0s m.ies).mapM toSize with
        | error e => rfl
        | ok rs =>
          rw [Py.ok_bind, Py.ok_bind]
          cases m.rest.get "nrecords".toList with
          | none => rfl
          | some l =>
            dsimp only
            cases one? l with
            | error e => rfl
            | ok nr =>
              rw [Py.ok_bind, Py.ok_bind]
              cases nr <;> rfl
  unfold initState
  cases m.rest.get "dataprec".toList with
  | some l =>
    dsimp only
    cases one? l with
    | error e => rfl
    | ok v => rw [Py.ok_bind, Py.ok_bind]; exact tail v
  | none =>
    dsimp only
    cases m.rest.get "format".toList with
    | none => rfl
    | some l =>
      dsimp only
      cases one? l with
      | error e => rfl
      | ok v => rw [Py.ok_bind, Py.ok_bind]; exact tail v

/-- The pieces of `initState`. -/
theorem initState_recs [PyFloat F] {args : RdArgs F} {nit : Nat} {m : TileMeta F} {st : RdState F} (h : initState args nit m = .ok st) :
    (∀ s, args.rec? = some s → st.recs = s.list) ∧ m.rest.get "nrecords".toList = some [.int st.nrecords] := by
  have key : ∀ (nr : Val F) (n : Nat) (g : Nat → Py (RdState F)), (∀ n st, g n = .ok st → st.nrecords = n ∧
      ∀ s, args.rec? = some s → st.recs = s.list) → m.rest.get "nrecords".toList = some [nr] →
      ((match nr with | .int z => toSize z | _ => .error .typeError) >>= g) = .ok st →
      (∀ s, args.rec? = some s → st.recs = s.list) ∧ m.rest.get "nrecords".toList = some [.int st.nrecords] := by
    intro nr _ g hg hget h
    obtain ⟨n, h2, h⟩ := bind_ok_inv h
    obtain ⟨e1, e2⟩ := hg n st h
    refine ⟨e2, ?_⟩
    rw [hget, e1]
    cases nr with
    | int z =>
      dsimp only at h2
      unfold toSize at h2
      split at h2
      · have : z.toNat = n := by injection h2
        rw [← this, Int.toNat_of_nonneg (by assumption)]
      · cases h2
    | flt x => cases h2
    | str x => cases h2
  have tail : ∀ v : Val F, (precOf v >>= fun prec =>
      if List.zipWith (fun i0 ie => ie - i0) m.i0s m.ies = [] then (.error .typeError : Py (RdState F)) else
        (List.zipWith (fun i0 ie => ie - i0) m.i0s m.ies).mapM toSize >>= fun recshape =>
        match m.rest.get "nrecords".toList with
        | some l => one? l >>= fun nr => (match nr with | .int z => toSize z | _ => .error .typeError) >>= fun nrecords =>
          initEnd args nit m prec recshape nrecords
        | none => .error .keyError) = .ok st → (∀ s, args.rec? = some s → st.recs = s.list) ∧
          m.rest.get "nrecords".toList = some [.int st.nrecords] := by
    intro v h
    obtain ⟨p, -, h⟩ := bind_ok_inv h
    split at h
    · cases h
    obtain ⟨rs, -, h⟩ := bind_ok_inv h
    cases hg : m.rest.get "nrecords".toList with
    | none => rw [hg] at h; cases h
    | some l =>
      rw [hg] at h
      match l, h with
      | [], h => cases h
      | [nr], h =>
        rw [← hg]
        exact key nr 0 _ (fun n st h => initEnd_inv h) hg h
      | _ :: _ :: _, h => cases h
  rw [initState_mk] at h
  obtain ⟨v, -, h⟩ := bind_ok_inv h
  exact tail v h

theorem readmeta_rest {pf : Text → Py F} {text : Text} {m : TileMeta F} (h : readmeta pf text = .ok m) :
    ∃ es, parsemeta pf text = .ok es ∧ es.get "nrecords".toList = m.rest.get "nrecords".toList := by
  unfold readmeta at h
  obtain ⟨es, h1, h⟩ := bind_ok_inv h
  refine ⟨es, h1, ?_⟩
  dsimp only at h
  split at h
  · cases h
  · obtain ⟨l, -, h⟩ := bind_ok_inv h
    injection h with h
    rw [← h]
    dsimp only
    rw [Dict.get_put, if_neg (by decide +kernel), Dict.get_del, if_neg (by decide +kernel), Dict.get_del, if_neg (by decide +kernel),
      Dict.get_del, if_neg (by decide +kernel), Dict.get_del, if_neg (by decide +kernel)]

/-- What reading the head of a tile gives. -/
theorem tileHead_inv [PyFloat F] {pf : Text → Py F} {d : MdsDir} {args : RdArgs F} {nit : Nat} {st : Option (RdState F)} {n : Text}
    {x : RdState F × Place × Option (Int × Int × Int × Int) × Text} (h : tileHead pf d args nit st n = .ok x) :
    n ∈ d.names ∧ x.2.2.2 = n.take (n.length - 4) ++ "data".toList ∧
      ((st = some x.1) ∨ (st = none ∧ (∀ s, args.rec? = some s → x.1.recs = s.list) ∧
        ∃ es, parsemeta pf (d.text n) = .ok es ∧ es.get "nrecords".toList = some [.int x.1.nrecords])) := by
  unfold tileHead at h
  obtain ⟨text, h1, h⟩ := bind_ok_inv h
  obtain ⟨m, h2, h⟩ := bind_ok_inv h
  obtain ⟨s1, h3, h⟩ := bind_ok_inv h
  obtain ⟨⟨r0, r1, r2⟩, -, h⟩ := bind_ok_inv h
  obtain ⟨pl, -, h⟩ := bind_ok_inv h
  injection h with h
  subst h
  unfold MdsDir.openText at h1
  split at h1
  case isFalse => cases h1
  rename_i hn
  injection h1 with h1
  subst h1
  refine ⟨hn, rfl, ?_⟩
  unfold stateFor at h3
  cases st with
  | some st =>
    left
    dsimp only at h3
    split at h3
    · exact congrArg some (by injection h3)
    · cases h3
  | none =>
    right
    obtain ⟨es, e1, e2⟩ := readmeta_rest h2
    obtain ⟨a, b⟩ := initState_recs h3
    exact ⟨rfl, a, es, e1, by rw [e2]; exact b⟩

theorem readRec_mk [PyFloat F] [F64 F] [F32 F] {args : RdArgs F} {st : RdState F} {iit : Nat} {pl : Place}
    {src : Option (Int × Int × Int × Int)} {bs : List Byte} {arr arr' : NdArr F} {x : Int × Nat} (hsrc : nonEmptySrc src = true)
    (h : readRec args st iit pl src bs arr x = .ok arr') : ∃ (r : Nat) (A : List (List Nat)),
      (if x.1 < 0 then x.1 + (st.nrecords : Int) else x.1) = (r : Int) ∧ sourceAxes args st.recshape src = .ok A ∧
      (((itemsOf st.prec args.endian bs : List F).drop (r * prodL st.recshape)).take (prodL st.recshape)).length = prodL st.recshape ∧
      NdArr.castable (A.map List.length) pl.shape = true ∧
      arr' = (indices pl.shape).foldl (fun a idx => a.set (iit :: x.2 :: pl.pos idx)
        (((NdArr.ofList Arith.zero st.recshape (((itemsOf st.prec args.endian bs : List F).drop (r * prodL st.recshape)).take
          (prodL st.recshape))).select A).bget idx)) arr := by
  unfold readRec at h
  dsimp only at h
  generalize hz : (if x.1 < 0 then x.1 + (st.nrecords : Int) else x.1) = z at h
  by_cases hr : z < 0
  · rw [if_pos hr] at h; cases h
  rw [if_neg hr, if_pos hsrc] at h
  obtain ⟨r, hr'⟩ : ∃ r : Nat, z = (r : Int) := ⟨_, (Int.toNat_of_nonneg (by omega)).symm⟩
  subst hr'
  rw [show (r : Int).toNat = r from rfl, itemsOf_drop] at h
  by_cases hl : (((itemsOf st.prec args.endian bs : List F).drop (r * prodL st.recshape)).take (prodL st.recshape)).length ≠ prodL st.recshape
  · rw [if_pos hl] at h; cases h
  rw [if_neg hl] at h
  obtain ⟨A, hA, h⟩ := bind_ok_inv h
  unfold NdArr.assign at h
  split at h
  case isFalse => cases h
  rename_i hc
  injection h with h
  exact ⟨r, A, rfl, hA, Decidable.not_not.1 hl, hc, h.symm⟩

theorem memmap_ok {d d' : MdsDir} {n : Text} {need : Nat} {bs : List Byte} (h : d.memmap n need = (d', .ok bs)) :
    bs = (d.data n ++ List.replicate (need - (d.data n).length) 0).take need ∧ Spec.ZeroExtended d d' ∧
      (need ≤ (d.data n).length → d' = d) := by
  unfold MdsDir.memmap at h
  split at h
  case isFalse => injection h with _ h; cases h
  dsimp only at h
  split at h
  · injection h with _ h; cases h
  · injection h with h1 h2
    injection h2 with h2
    refine ⟨h2.symm, ?_, ?_⟩
    · split at h1
      · subst h1
        refine ⟨rfl, rfl, fun m => ?_⟩
        unfold MdsDir.setData
        dsimp only
        by_cases hm : m = n
        · rw [if_pos hm, hm]; exact ⟨_, rfl⟩
        · rw [if_neg hm]; exact ⟨0, by simp⟩
      · subst h1
        exact ⟨rfl, rfl, fun m => ⟨0, by simp⟩⟩
    · intro hle
      rw [if_neg (by omega)] at h1
      exact h1.symm

theorem memmap_works {d : MdsDir} {n : Text} (need : Nat) (hn : n ∈ d.names) (he : d.data n ≠ []) :
    ∃ d', d.memmap n need = (d', .ok ((d.data n ++ List.replicate (need - (d.data n).length) 0).take need)) := by
  unfold MdsDir.memmap
  rw [if_pos hn]
  dsimp only
  rw [if_neg (by simp [he])]
  exact ⟨_, rfl⟩

theorem ZeroExtended.trans {a b c : MdsDir} (h : Spec.ZeroExtended a b) (h' : Spec.ZeroExtended b c) : Spec.ZeroExtended a c := by
  refine ⟨h'.1.trans h.1, h'.2.1.trans h.2.1, fun n => ?_⟩
  obtain ⟨k, hk⟩ := h.2.2 n
  obtain ⟨j, hj⟩ := h'.2.2 n
  exact ⟨k + j, by rw [hj, hk, List.append_assoc, List.replicate_append_replicate]⟩

theorem ZeroExtended.refl (a : MdsDir) : Spec.ZeroExtended a a := ⟨rfl, rfl, fun _ => ⟨0, by simp⟩⟩

/-- All chosen records of a tile at once. -/
theorem assignMapped_recs [PyFloat F] [F64 F] [F32 F] {args : RdArgs F} {st : RdState F} {iit : Nat} {pl : Place}
    {src : Option (Int × Int × Int × Int)} (hsrc : nonEmptySrc src = true) {bs bs' : List Byte} {s : Sel} (hrec : args.rec? = some s)
    (hst : RecState args st) (hne : s.list ≠ []) {arr : NdArr F}
    (h : st.recs.zipIdx.foldlM (readRec args st iit pl src bs) st.arr = .ok arr)
    (hbs : ∃ k, bs' = (bs ++ List.replicate k (0 : Byte)).take (prodL (st.nrecords :: st.recshape) * st.prec.size))
    (hlen : bs'.length = prodL (st.nrecords :: st.recshape) * st.prec.size) :
    assignMapped args st iit pl src bs' = .ok arr := by
  obtain ⟨hrecs, hlt⟩ := hst s hrec
  rw [hrecs] at h
  -- the axes
  obtain ⟨A, hA, hcast⟩ : ∃ A, sourceAxes args st.recshape src = .ok A ∧ NdArr.castable (A.map List.length) pl.shape = true := by
    cases hl : s.list with
    | nil => exact absurd hl hne
    | cons z l =>
      rw [hl, List.zipIdx_cons, List.foldlM_cons] at h
      obtain ⟨a1, h1, -⟩ := bind_ok_inv h
      obtain ⟨r, A, -, hA, -, hc, -⟩ := readRec_mk hsrc h1
      exact ⟨A, hA, hc⟩
  have hAin := sourceAxes_in hA
  let c := prodL st.recshape
  let recno : Int → Nat := fun z => (if z < 0 then z + (st.nrecords : Int) else z).toNat
  let items : List F := itemsOf st.prec args.endian bs
  let val : Int → List Nat → F := fun z idx =>
    ((NdArr.ofList Arith.zero st.recshape ((items.drop (recno z * c)).take c)).select A).bget idx
  obtain ⟨harr, hall⟩ := foldlM_ok_inv
    (g := fun (a : NdArr F) (x : Int × Nat) => (indices pl.shape).foldl (fun a idx => a.set (iit :: x.2 :: pl.pos idx) (val x.1 idx)) a)
    (C := fun (x : Int × Nat) => 0 ≤ (if x.1 < 0 then x.1 + (st.nrecords : Int) else x.1) ∧ ((items.drop (recno x.1 * c)).take c).length = c) (by
      intro x _ b b' hb
      obtain ⟨r, A', hr, hA', hl, -, e⟩ := readRec_mk hsrc hb
      have hAA : A' = A := by rw [hA] at hA'; injection hA' with hA'; exact hA'.symm
      subst hAA
      have hrn : recno x.1 = r := by show (if x.1 < 0 then x.1 + (st.nrecords : Int) else x.1).toNat = r; rw [hr]; rfl
      refine ⟨?_, ?_, ?_⟩
      · rw [e]
        show _ = (indices pl.shape).foldl (fun a idx => a.set (iit :: x.2 :: pl.pos idx)
          (((NdArr.ofList Arith.zero st.recshape ((items.drop (recno x.1 * c)).take c)).select A').bget idx)) b
        rw [hrn]
      · rw [hr]; exact Int.natCast_nonneg r
      · rw [hrn]; exact hl) h
  have hmem : ∀ z ∈ s.list, 0 ≤ (if z < 0 then z + (st.nrecords : Int) else z) ∧ ((items.drop (recno z * c)).take c).length = c := by
    intro z hz
    obtain ⟨i, hi, e⟩ := List.mem_iff_getElem.1 hz
    exact hall (z, i) (by rw [List.mem_zipIdx_iff_getElem?]; rw [List.getElem?_eq_getElem hi, e])
  have hidx : ∀ z ∈ s.list, pyIdx st.nrecords z = some (recno z) ∧ recno z < st.nrecords := by
    intro z hz
    have h1 := (hmem z hz).1
    have h2 := hlt z hz
    unfold pyIdx
    show _ = some (if z < 0 then z + (st.nrecords : Int) else z).toNat ∧ (if z < 0 then z + (st.nrecords : Int) else z).toNat < _
    by_cases hz0 : z < 0
    · rw [if_pos hz0] at h1 ⊢
      rw [if_neg (by omega), if_pos (by omega)]
      exact ⟨by congr 1; omega, by omega⟩
    · rw [if_neg hz0] at h1 ⊢
      rw [if_pos (by omega), if_pos (by omega)]
      exact ⟨rfl, by omega⟩
  have hra : recAxis args st.nrecords = .ok (s.list.map recno) := by
    unfold recAxis
    rw [hrec]
    dsimp only
    have : ∀ l : List Int, (∀ z ∈ l, pyIdx st.nrecords z = some (recno z)) → (l.mapM fun z => match pyIdx st.nrecords z with
        | some i => Except.ok i
        | none => Except.error PyErr.indexError) = (.ok (l.map recno) : Py (List Nat)) := by
      intro l
      induction l with
      | nil => intro _; rfl
      | cons z l ih =>
        intro hl
        rw [List.mapM_cons, hl z (by simp), ih (fun x hx => hl x (by simp [hx]))]
        rfl
    exact this _ fun z hz => (hidx z hz).1
  unfold assignMapped
  rw [hra, Py.ok_bind, hA, Py.ok_bind]
  dsimp only
  unfold NdArr.assign
  have hshape : ((NdArr.ofList Arith.zero (st.nrecords :: st.recshape) (itemsOf st.prec args.endian bs' : List F)).select
      (s.list.map recno :: A)).shape = s.list.length :: A.map List.length := by
    show (s.list.map recno).length :: A.map List.length = _
    rw [List.length_map]
  have hc2 : NdArr.castable (s.list.length :: A.map List.length) (s.list.length :: pl.shape) = true := by
    unfold NdArr.castable at hcast ⊢
    rw [List.zip_cons_cons, List.all_cons]
    simp only [Bool.and_eq_true, decide_eq_true_eq, List.length_cons, Bool.or_eq_true] at hcast ⊢
    exact ⟨by omega, .inl trivial, hcast.2⟩
  rw [hshape, hrecs, if_pos hc2]
  congr 1
  rw [harr]
  -- the values
  have hval : ∀ (i : Nat) (z : Int) (idx : List Nat), s.list[i]? = some z → InShape pl.shape idx →
      ((NdArr.ofList Arith.zero (st.nrecords :: st.recshape) (itemsOf st.prec args.endian bs' : List F)).select
        (s.list.map recno :: A)).bget (i :: idx) = val z idx := by
    intro i z idx hi hidx'
    have hz : z ∈ s.list := List.mem_of_getElem? hi
    have hil : i < s.list.length := (List.getElem?_eq_some_iff.1 hi).1
    have hin := cast_in hcast hidx'
    have hp := pick_in hAin hin
    have hrv := ravel_lt' hp
    generalize hq : NdArr.pick A (List.zipWith (fun n i => if n = 1 then 0 else i) (A.map List.length) idx) = q at hp hrv
    have hi' : (if (s.list.map recno).length = 1 then 0 else i) = i := by
      rw [List.length_map]
      split
      · omega
      · rfl
    have lhs : ((NdArr.ofList Arith.zero (st.nrecords :: st.recshape) (itemsOf st.prec args.endian bs' : List F)).select
        (s.list.map recno :: A)).bget (i :: idx) =
        (itemsOf st.prec args.endian bs' : List F).getD (recno z * c + ravel st.recshape q) Arith.zero := by
      show (itemsOf st.prec args.endian bs' : List F).getD (((s.list.map recno).getD (if (s.list.map recno).length = 1 then 0 else i) 0) * c +
        ravel st.recshape (NdArr.pick A (List.zipWith (fun n i => if n = 1 then 0 else i) (A.map List.length) idx))) Arith.zero = _
      rw [hi', hq, List.getD_eq_getElem?_getD (l := s.list.map recno), List.getElem?_map, hi]
      rfl
    have rhs : val z idx = ((items.drop (recno z * c)).take c).getD (ravel st.recshape q) Arith.zero := by
      show ((items.drop (recno z * c)).take c).getD (ravel st.recshape
        (NdArr.pick A (List.zipWith (fun n i => if n = 1 then 0 else i) (A.map List.length) idx))) Arith.zero = _
      rw [hq]
    rw [lhs, rhs, List.getD_eq_getElem?_getD, List.getD_eq_getElem?_getD, List.getElem?_take_of_lt hrv, List.getElem?_drop]
    congr 1
    -- the same bytes
    have hil2 := (hmem z hz).2
    rw [List.length_take, List.length_drop] at hil2
    have hm : recno z * c + ravel st.recshape q < items.length := by have : ravel st.recshape q < c := hrv; omega
    have hrlt := (hidx z hz).2
    have hneed : recno z * c + ravel st.recshape q < st.nrecords * c := by
      have h1 : (recno z + 1) * c ≤ st.nrecords * c := Nat.mul_le_mul_right _ hrlt
      have h2 : (recno z + 1) * c = recno z * c + c := Nat.succ_mul _ _
      have : ravel st.recshape q < c := hrv
      omega
    generalize recno z * c + ravel st.recshape q = m at hm hneed
    have hs := size_pos st.prec
    have hil3 : items.length = bs.length / st.prec.size := itemsOf_length _ _ _
    rw [hil3, Nat.lt_div_iff_mul_lt hs] at hm
    have hm1 : (m + 1) * st.prec.size ≤ bs.length := by
      have : (m + 1) * st.prec.size = m * st.prec.size + st.prec.size := Nat.succ_mul _ _
      omega
    have hm2 : (m + 1) * st.prec.size ≤ bs'.length := by
      rw [hlen]
      exact Nat.mul_le_mul_right _ hneed
    apply itemsOf_same st.prec args.endian (L := (m + 1) * st.prec.size) ?_ hm2 hm1 (Nat.le_refl _)
    obtain ⟨k, hk⟩ := hbs
    rw [hk, List.take_take, Nat.min_eq_left (by rw [← hlen]; exact hm2), List.take_append_of_le_length hm1]
  have hstep := assign_records (n := s.list.length) (vs := pl.shape) st.arr iit pl.pos (fun i idx =>
    ((NdArr.ofList Arith.zero (st.nrecords :: st.recshape) (itemsOf st.prec args.endian bs' : List F)).select
        (s.list.map recno :: A)).bget (i :: idx))
  refine Eq.trans (foldl_congr_mem ?_) (Eq.trans hstep ?_)
  · intro idx hidx' b
    have := mem_indices.1 hidx'
    match idx, this with
    | i :: idx, _ => rfl
  have hsnd : List.range s.list.length = s.list.zipIdx.map Prod.snd := by
    rw [List.zipIdx_map_snd, List.range_eq_range']
  rw [hsnd, List.foldl_map]
  apply foldl_congr_mem
  intro x hx b
  rw [List.mem_zipIdx_iff_getElem?] at hx
  apply foldl_congr_mem
  intro idx hidx' b
  rw [hval x.2 x.1 idx hx (mem_indices.1 hidx')]

/-- All records of a tile at once. -/
theorem assignMapped_all [PyFloat F] [F64 F] [F32 F] {args : RdArgs F} {st : RdState F} {iit : Nat} {pl : Place}
    {src : Option (Int × Int × Int × Int)} (hsrc : nonEmptySrc src = true) {bs : List Byte} (hrec : args.rec? = none) {arr : NdArr F}
    (h : readAll args st iit pl src (fun _ => .ok bs) = .ok arr) :
    bs.length / st.prec.size = prodL (st.nrecords :: st.recshape) ∧
      assignMapped args st iit pl src (bs.take (prodL (st.nrecords :: st.recshape) * st.prec.size)) = .ok arr := by
  obtain ⟨p, s, n, rs, wi, ref, a0⟩ := st
  rw [readAll_mk, if_pos hsrc, Py.ok_bind] at h
  dsimp only
  split at h
  · cases h
  rename_i hl
  have hl := Decidable.not_not.1 hl
  rw [itemsOf_length] at hl
  refine ⟨hl, ?_⟩
  obtain ⟨A, hA, h⟩ := bind_ok_inv h
  unfold assignMapped recAxis
  rw [hrec]
  dsimp only
  rw [Py.ok_bind, hA, Py.ok_bind]
  have hs := size_pos p
  have hle : prodL (n :: s) * p.size ≤ bs.length := by rw [← hl]; exact Nat.div_mul_le_self _ _
  have hitems : (itemsOf p args.endian (bs.take (prodL (n :: s) * p.size)) : List F) = itemsOf p args.endian bs := by
    apply List.ext_getElem?
    intro m
    have hl2 : (bs.take (prodL (n :: s) * p.size)).length = prodL (n :: s) * p.size := by rw [List.length_take]; omega
    by_cases hm : m < prodL (n :: s)
    · apply itemsOf_same p args.endian (L := prodL (n :: s) * p.size) ?_ (Nat.le_of_eq hl2.symm) hle (Nat.mul_le_mul_right _ hm)
      rw [List.take_take, Nat.min_self]
    · rw [List.getElem?_eq_none (by rw [itemsOf_length, hl2, Nat.mul_div_cancel _ hs]; omega),
        List.getElem?_eq_none (by rw [itemsOf_length, hl]; omega)]
  rw [hitems]
  exact h

theorem tile_mm [PyFloat F] [F64 F] [F32 F] {pf : Text → Py F} {d₀ d : MdsDir} {fname : Text} {args : RdArgs F} {nit iit : Nat}
    {st st' : Option (RdState F)} {n : Text} (hdata : Spec.NoEmptyData d₀) (hpre : fname <+: n)
    (hrecs : ∀ s, args.rec? = some s → s.list ≠ [] ∧ Spec.RecordsThere pf d₀ fname s.list)
    (hd : Spec.ZeroExtended d₀ d ∧ (args.rec? = none → d = d₀)) (hst : ∀ x, st = some x → RecState args x)
    (h : tileStep pf d₀ args nit iit st n = .ok st') : (∀ x, st' = some x → RecState args x) ∧
      ∃ d', tileStepMm pf args nit iit d st n = (d', .ok st') ∧ Spec.ZeroExtended d₀ d' ∧ (args.rec? = none → d' = d₀) := by
  rw [tileStep_head] at h
  obtain ⟨⟨s1, pl, src, df⟩, hh, h⟩ := bind_ok_inv h
  obtain ⟨arr, h1, h⟩ := bind_ok_inv h
  have hst' : some { s1 with arr := arr } = st' := by injection h
  subst hst'
  obtain ⟨hn, hdf, hcase⟩ := tileHead_inv hh
  have hdf : df = n.take (n.length - 4) ++ "data".toList := hdf
  have hs1 : RecState args s1 := by
    rcases hcase with e | ⟨-, e1, es, e2, e3⟩
    · exact hst s1 e
    · intro s hs
      refine ⟨e1 s hs, fun z hz => ?_⟩
      exact (hrecs s hs).2 n hn hpre es _ e2 e3 z hz
  refine ⟨?_, ?_⟩
  · intro x hx
    injection hx with hx
    subst hx
    exact hs1
  have hhead : tileHead pf d args nit st n = .ok (s1, pl, src, df) := by
    rw [← hh]
    unfold tileHead MdsDir.openText
    rw [hd.1.1, hd.1.2.1]
  unfold tileStepMm
  rw [hhead]
  dsimp only
  dsimp only at h1
  by_cases hsrc : nonEmptySrc src = true
  · rw [if_pos hsrc]
    -- the data file is there
    have hopen : df ∈ d₀.names := by
      by_cases hin : df ∈ d₀.names
      · exact hin
      · exfalso
        have ho : d₀.openData df = .error .ioError := if_neg hin
        unfold readTile at h1
        cases hr : args.rec? with
        | none =>
          rw [hr] at h1
          dsimp only at h1
          unfold readAll at h1
          rw [if_pos hsrc, ho] at h1
          cases h1
        | some s =>
          rw [hr] at h1
          dsimp only at h1
          rw [ho] at h1
          cases h1
    have ho : d₀.openData df = .ok (d₀.data df) := if_pos hopen
    have hne : d₀.data df ≠ [] := by
      have := hdata (n.take (n.length - 4)) (by rw [← hdf]; exact hopen)
      rwa [← hdf] at this
    obtain ⟨k, hk⟩ := hd.1.2.2 df
    have hne' : d.data df ≠ [] := by rw [hk]; simp [hne]
    obtain ⟨d', hm⟩ := memmap_works (prodL (s1.nrecords :: s1.recshape) * s1.prec.size) (by rw [hd.1.1]; exact hopen) hne'
    obtain ⟨-, hext, hsame⟩ := memmap_ok hm
    rw [hm]
    dsimp only
    rw [Py.ok_bind]
    unfold readTile at h1
    cases hr : args.rec? with
    | none =>
      rw [hr] at h1
      dsimp only at h1
      rw [ho] at h1
      obtain ⟨hl, ha⟩ := assignMapped_all hsrc hr h1
      have hdd := hd.2 hr
      subst hdd
      have hs := size_pos s1.prec
      have hle : prodL (s1.nrecords :: s1.recshape) * s1.prec.size ≤ (d.data df).length := by
        rw [← hl]; exact Nat.div_mul_le_self _ _
      rw [show prodL (s1.nrecords :: s1.recshape) * s1.prec.size - (d.data df).length = 0 from by omega,
        List.replicate_zero, List.append_nil, ha]
      exact ⟨d', rfl, hext, fun _ => hsame hle⟩
    | some s =>
      rw [hr] at h1
      dsimp only at h1
      rw [ho, Py.ok_bind] at h1
      have ha := assignMapped_recs hsrc hr hs1 (hrecs s hr).1 h1
        (bs' := (d.data df ++ List.replicate (prodL (s1.nrecords :: s1.recshape) * s1.prec.size - (d.data df).length) 0).take
          (prodL (s1.nrecords :: s1.recshape) * s1.prec.size))
        ⟨k + (prodL (s1.nrecords :: s1.recshape) * s1.prec.size - (d.data df).length), by
          rw [hk, List.append_assoc, List.replicate_append_replicate]⟩
        (by rw [List.length_take, List.length_append, List.length_replicate]; omega)
      rw [ha]
      exact ⟨d', rfl, ZeroExtended.trans hd.1 hext, fun e => by cases e⟩
  · rw [if_neg hsrc]
    have harr : arr = s1.arr := by
      unfold readTile at h1
      cases hr : args.rec? with
      | none =>
        rw [hr] at h1
        dsimp only at h1
        unfold readAll at h1
        rw [if_neg hsrc] at h1
        injection h1 with h1
        exact h1.symm
      | some s =>
        rw [hr] at h1
        dsimp only at h1
        obtain ⟨bs, -, h1⟩ := bind_ok_inv h1
        obtain ⟨e, -⟩ := foldlM_ok_inv (g := fun a _ => a) (C := fun _ => True) (by
          intro x _ b b' hb
          refine ⟨?_, trivial⟩
          unfold readRec at hb
          dsimp only at hb
          generalize (if x.1 < 0 then x.1 + (s1.nrecords : Int) else x.1) = z at hb
          by_cases hz : z < 0
          · rw [if_pos hz] at hb; cases hb
          · rw [if_neg hz, if_neg hsrc] at hb
            injection hb with hb
            exact hb.symm) h1
        rw [e]
        generalize s1.recs.zipIdx = l
        induction l with
        | nil => rfl
        | cons a l ih => exact ih
    subst harr
    exact ⟨d, rfl, hd⟩

/-! ## Whole readings -/

theorem metafiles_ext {d₀ d : MdsDir} (h : Spec.ZeroExtended d₀ d) (name : Text) : d.metafiles name = d₀.metafiles name := by
  unfold MdsDir.metafiles
  rw [h.1]

theorem found_prefix {d : MdsDir} {fname n : Text} {it : Option Nat} (h : n ∈ d.metafiles (nameOf fname it)) : fname <+: n := by
  have hp : ∀ name : Text, Spec.Found d name n → name <+: n := by
    rintro name ⟨-, ⟨a, b, c, e, f, g, -, rfl⟩ | ⟨-, rfl⟩⟩
    · exact List.prefix_append _ _
    · exact List.prefix_append _ _
  have h1 := hp _ (mem_metafiles.1 h)
  cases it with
  | none => exact h1
  | some k => exact (List.prefix_append fname _).trans h1

theorem itrStepMm_name [PyFloat F] [F64 F] [F32 F] (pf : Text → Py F) (d : MdsDir) (fname : Text) (args : RdArgs F) (nit : Nat)
    (st : Option (RdState F)) (it : Option Nat) (k : Nat) : itrStepMm pf fname args nit d st (it, k) =
      if d.metafiles (nameOf fname it) = [] then (d, .error .ioError)
      else dirFold (tileStepMm pf args nit k) d st (d.metafiles (nameOf fname it)) := by
  have h : itrStepMm pf fname args nit d st (it, k) = match d.metafiles (nameOf fname it) with
      | [] => (d, .error .ioError)
      | files => dirFold (tileStepMm pf args nit k) d st files := by cases it <;> rfl
  rw [h]
  cases d.metafiles (nameOf fname it) <;> rfl

theorem rdmds_finish [PyFloat F] [F64 F] [F32 F] (pf : Text → Py F) (d : MdsDir) (fname : Text) (args : RdArgs F) :
    rdmds pf d fname args = (((itrsOf d fname args.itrs).zipIdx.foldlM (itrStep pf d fname args (itrsOf d fname args.itrs).length) none) >>=
      finishRd args (itrsOf d fname args.itrs).length) := by
  unfold rdmds
  congr 1

/-- C106: what is read without a memory map is also read with one.  Only files that are too short, which matters to nobody who asks
for other records, are changed. -/
theorem C106_memmap_same [PyFloat F] [F64 F] [F32 F] (pf : Text → Py F) (d : MdsDir) (fname : Text) (args : RdArgs F) (a : NdArr F)
    (hdata : Spec.NoEmptyData d) (hrecs : ∀ s, args.rec? = some s → s.list ≠ [] ∧ Spec.RecordsThere pf d fname s.list)
    (h : rdmds pf d fname args = .ok a) :
    ∃ d', rdmdsMm pf d fname args = (d', .ok a) ∧ Spec.ZeroExtended d d' ∧ (args.rec? = none → d' = d) := by
  rw [rdmds_finish] at h
  obtain ⟨st, h1, h2⟩ := bind_ok_inv h
  obtain ⟨-, d', h3, h4⟩ := dirFold_of_foldlM (f := itrStepMm pf fname args (itrsOf d fname args.itrs).length)
    (P := fun e => Spec.ZeroExtended d e ∧ (args.rec? = none → e = d)) (Q := fun st => ∀ x, st = some x → RecState args x) (d := d) (by
      intro x _ e s s' hP hQ hs
      obtain ⟨it, k⟩ := x
      rw [itrStep_name] at hs
      split at hs
      · cases hs
      rename_i hne
      rw [itrStepMm_name, metafiles_ext hP.1, if_neg hne]
      refine dirFold_of_foldlM (P := fun e => Spec.ZeroExtended d e ∧ (args.rec? = none → e = d))
        (Q := fun st => ∀ x, st = some x → RecState args x) ?_ hP hQ hs
      intro n hn e s s' hP hQ hs
      exact tile_mm hdata (found_prefix hn) hrecs hP hQ hs)
    ⟨ZeroExtended.refl d, fun _ => rfl⟩ (by intro x hx; cases hx) h1
  refine ⟨d', ?_, h4⟩
  unfold rdmdsMm
  dsimp only
  rw [h3, ← h2]
  rfl

/-! ## Files written with `wrmds`, whatever the data -/

/-- The files that `wrmds` writes, with other data. -/
def wrFiles (fe : F → Text) (fbase : Text) (args : WrArgs F) (nd : Nat) (lead dims : List Nat) (bs : List Byte) : Written :=
  ⟨nameOf fbase args.itr, metaText fe ⟨nd, dims.reverse, args.prec, prodL lead, args.itr, args.times, args.fields, args.simulation⟩, bs⟩

theorem metafiles_written {d : MdsDir} {w : Written} (h : ∀ n ∈ d.names, ¬ Spec.TileName w.base n) :
    (d.write w).metafiles w.base = [w.base ++ ".meta".toList] := by
  have hno : (d.write w).names.filter (fun n => w.base.isPrefixOf n && isTileSuffix (n.drop w.base.length)) = [] := by
    rw [List.filter_eq_nil_iff]
    intro n hn ht
    have hf := (found_written h n).1 ⟨hn, .inl (tileName_iff.1 ht)⟩
    have := tileName_length (tileName_iff.1 ht)
    rw [hf, List.length_append] at this
    have e : ".meta".toList.length = 5 := rfl
    omega
  unfold MdsDir.metafiles
  dsimp only
  rw [hno, if_neg (by simp), if_pos (write_mem.2 (.inr (.inl rfl)))]

theorem wrFiles_tile [PyFloat F] [F64 F] [F32 F] {pf : Text → Py F} {fe : F → Text} {rnd : F → F} (d : MdsDir) {fbase : Text} {args : WrArgs F}
    (nd : Nat) (lead : List Nat) {dims : List Nat} (h2 : 2 ≤ dims.length) (hlab : Spec.Labels pf fe rnd args) :
    ∃ (ds : DataSet) (box : Box) (rest : Dict F), ds.prec = args.prec ∧ ds.R = prodL lead ∧ ds.gl = [] ∧ ds.G = dims ∧ ds.Z = dims ∧
      box.start ds = List.replicate dims.length 0 ∧ outDims ds [] none = dims ∧ rest.same rest = true ∧
      ∀ bs : List Byte, bs.length = prodL lead * prodL dims * args.prec.size →
        TileAt pf (d.write (wrFiles fe fbase args nd lead dims bs)) ds (nameOf fbase args.itr ++ ".meta".toList) box rest := by
  have hdne : dims ≠ [] := by intro e; rw [e] at h2; simp at h2
  obtain ⟨gm, gy, gx, hd⟩ : ∃ gm gy gx, dims = gm ++ [gy, gx] := by
    obtain ⟨a, b, hab⟩ : ∃ a b, dims = a ++ b ∧ b.length = 2 :=
      ⟨dims.take (dims.length - 2), dims.drop (dims.length - 2), (List.take_append_drop _ _).symm, by rw [List.length_drop]; omega⟩
    match b, hab.2 with
    | [y, x], _ => exact ⟨a, y, x, hab.1⟩
  let ds : DataSet := ⟨args.prec, prodL lead, [], gm, gy, gx, gm, gy, gx⟩
  have hG : ds.G = dims := hd.symm
  have hZ : ds.Z = dims := hd.symm
  let ma : MetaArgs F := ⟨nd, dims.reverse, args.prec, prodL lead, args.itr, args.times, args.fields, args.simulation⟩
  let box : Box := ⟨List.replicate gm.length 0, 0, 0⟩
  have hstart : box.start ds = List.replicate dims.length 0 := by
    show [] ++ List.replicate gm.length 0 ++ [0, 0] = _
    rw [hd, List.length_append, List.nil_append, List.replicate_append_replicate.symm]
    rfl
  have hmw : Spec.MetaWritable pf fe rnd ma := ⟨by simpa [ma] using hdne, hlab.simulation, hlab.times, hlab.fields⟩
  -- a directory with data of the right form
  let tile : Spec.MdsTile F := ⟨box, fun _ => Arith.zero⟩
  let w0 : Written := wrFiles fe fbase args nd lead dims ((indices (ds.R :: ds.Z)).flatMap fun i => itemBytes ds.prec args.endian (tile.elem i))
  have hfile : Spec.TileFile pf (d.write w0) args.endian ds (metaCommon (Spec.metaEntries rnd ma)) (w0.base ++ ".meta".toList) tile := by
    refine ⟨⟨replicate_start gm, Nat.le_of_eq (Nat.zero_add _), Nat.le_of_eq (Nat.zero_add _)⟩, write_mem.2 (.inr (.inl rfl)), ⟨?_⟩,
      by rw [dataOf_meta]; exact write_mem.2 (.inr (.inr rfl)), ?_⟩
    · refine ⟨Spec.metaEntries rnd ma, ?_, ?_, metaEntries_no_m2g rnd ma, ?_⟩
      · have : (d.write w0).text (w0.base ++ ".meta".toList) = metaText fe ma := if_pos rfl
        rw [this]
        exact C58_meta_round_trip pf fe rnd ma hmw
      · rw [metaEntries_get_dims]
        show _ = some (Spec.dimEntries ds.G (box.start ds) ds.Z)
        rw [hstart, hG, hZ, dimEntries_whole]
      · intro k hk
        unfold metaCommon
        rw [if_neg hk]
    · rw [dataOf_meta]
      exact if_pos rfl
  have hc := metaCommon_ok rnd ma ds rfl rfl
  obtain ⟨hat, -, -⟩ := tileAt_of hc hfile
  refine ⟨ds, box, _, rfl, rfl, rfl, hG, hZ, hstart, by rw [hd]; rfl, rest_same hc hfile hfile, ?_⟩
  intro bs hbs
  refine ⟨write_mem.2 (.inr (.inl rfl)), ?_, ?_, ?_, hat.box, hat.heads⟩
  · have e : (d.write (wrFiles fe fbase args nd lead dims bs)).text (nameOf fbase args.itr ++ ".meta".toList) =
        (d.write w0).text (w0.base ++ ".meta".toList) := (if_pos rfl).trans (if_pos rfl).symm
    rw [e]
    exact hat.metaData
  · show (nameOf fbase args.itr ++ ".meta".toList).take ((nameOf fbase args.itr ++ ".meta".toList).length - 4) ++ "data".toList ∈ _
    rw [dataOf_meta]
    exact write_mem.2 (.inr (.inr rfl))
  · have e : (d.write (wrFiles fe fbase args nd lead dims bs)).data (dataName (nameOf fbase args.itr ++ ".meta".toList)) = bs := by
      show (d.write (wrFiles fe fbase args nd lead dims bs)).data
        ((nameOf fbase args.itr ++ ".meta".toList).take ((nameOf fbase args.itr ++ ".meta".toList).length - 4) ++ "data".toList) = bs
      rw [dataOf_meta]
      exact if_pos rfl
    rw [e, hbs, hZ]

theorem prodL_pos {l : List Nat} (h : ∀ n ∈ l, 0 < n) : 0 < prodL l := by
  induction l with
  | nil => exact Nat.one_pos
  | cons n l ih => exact Nat.mul_pos (h n (by simp)) (ih fun m hm => h m (by simp [hm]))

/-- What is read from such files. -/
theorem rdmds_bytes [PyFloat F] [F64 F] [F32 F] {pf : Text → Py F} {fe : F → Text} {rnd : F → F} (d : MdsDir) {fbase : Text} {args : WrArgs F}
    (fill : F) (nd : Nat) {lead dims : List Nat} (h2 : 2 ≤ dims.length) (hlead : ∀ n ∈ lead, 0 < n) (hlab : Spec.Labels pf fe rnd args)
    (hstale : ∀ n ∈ d.names, ¬ Spec.TileName (nameOf fbase args.itr) n) (bs : List Byte)
    (hbs : bs.length = prodL lead * prodL dims * args.prec.size) :
    ∃ b : NdArr F, rdmds pf (d.write (wrFiles fe fbase args nd lead dims bs)) fbase
        { itrs := Spec.itrsFor args.itr, endian := args.endian, fill := fill } = .ok b ∧
      b.shape = (if 1 < prodL lead then [prodL lead] else []) ++ dims ∧ b.toList = itemsOf args.prec args.endian bs := by
  obtain ⟨ds, box, rest, hp, hR, hgl, hG, hZ, hstart, hout, hsame, hat⟩ := wrFiles_tile (fbase := fbase) d nd lead h2 hlab
  have hat := hat bs hbs
  let w := wrFiles fe fbase args nd lead dims bs
  let rd : RdArgs F := { itrs := Spec.itrsFor args.itr, endian := args.endian, fill := fill }
  have hR0 := prodL_pos hlead
  have hits : itrsOf (d.write w) fbase rd.itrs = [args.itr] := by show itrsOf (d.write w) fbase (Spec.itrsFor args.itr) = _; cases args.itr <;> rfl
  have hsel : Spec.Selects rd ds [] none (List.range ds.R) := ⟨by rw [hgl]; trivial, by rw [hgl]; rfl, trivial, rfl⟩
  have hmf : (d.write w).metafiles (nameOf fbase args.itr) = [nameOf fbase args.itr ++ ".meta".toList] := metafiles_written (w := w) hstale
  obtain ⟨arr, h3, h4, h5⟩ := rdmds_eq (pf := pf) (d := d.write w) (fname := fbase) (args := rd) (reads_of hsel) (rest := fun _ => rest)
    (box := fun _ => box) (by rw [hits]; simp) (by
      intro it hit
      rw [hits] at hit
      rw [List.mem_singleton.1 hit, hmf]
      refine ⟨by simp, fun n hn => ?_⟩
      rw [List.mem_singleton.1 hn]
      exact hat) (fun _ _ _ _ _ _ _ _ => hsame)
  rw [hits, List.length_range, hR, hout] at h3
  have hsq : squeezed rd ((itrsOf (d.write w) fbase rd.itrs).length :: (List.range ds.R).length :: ([] : List (List Nat)).map List.length) =
      if 1 < prodL lead then [prodL lead] else [] := by
    rw [hits, List.length_range, hR]
    show ([1, prodL lead] : List Nat).filter (1 < ·) = _
    rw [List.filter_cons, if_neg (by simp), List.filter_cons]
    simp
  rw [hsq, hout] at h5
  have hprod : prodL ((if 1 < prodL lead then [prodL lead] else []) ++ dims.drop ([] : List (List Nat)).length) = prodL arr.shape := by
    rw [h3, prodL_append]
    show _ * prodL dims = 1 * (prodL lead * prodL dims)
    rw [Nat.one_mul]
    congr 1
    split
    · exact Nat.mul_one _
    · show 1 = _; omega
  unfold NdArr.reshape at h5
  rw [if_pos hprod] at h5
  refine ⟨_, h5, rfl, ?_⟩
  rw [NdArr.ofList_toList _ (by rw [NdArr.toList_length, hprod])]
  have hs := size_pos args.prec
  have hil : (itemsOf args.prec args.endian bs : List F).length = prodL (1 :: prodL lead :: dims) := by
    rw [itemsOf_length, hbs, Nat.mul_div_cancel _ hs]
    show _ = 1 * (prodL lead * prodL dims)
    rw [Nat.one_mul]
  rw [← NdArr.ofList_toList Arith.zero hil]
  apply NdArr.toList_congr
  · rw [h3]; rfl
  · intro idx hidx
    rw [h3] at hidx
    match idx, hidx with
    | i :: k :: q, hidx =>
      have hi : i = 0 := by have h : i < 1 := hidx.1; omega
      subst hi
      have hq : InShape dims q := hidx.2.2
      have hk : k < prodL lead := hidx.2.1
      rw [h4 0 k q args.itr k (by rw [hits]; rfl) (by rw [List.getElem?_range (by rw [hR]; exact hk)]) (by rw [hout]; exact hq), hmf]
      obtain ⟨hb1, hb2⟩ := inBox_iff (L := []) (w := none) hat.box (by rw [hgl]; trivial) (q := q) (by rw [hout]; exact hq)
      have hcov : InBox (axesOf ds box [] none) q := by
        rw [hb1]
        show Spec.Covers (box.start ds) ds.Z q
        rw [hstart, hZ]; exact covers_whole hq
      show (if InBox (axesOf ds box [] none) q then tileVal args.endian ds
        ((d.write w).data (dataName (nameOf fbase args.itr ++ ".meta".toList))) k (srcIdx (axesOf ds box [] none) q) else fill) = _
      rw [if_pos hcov, hb2]
      have hdata : (d.write w).data (dataName (nameOf fbase args.itr ++ ".meta".toList)) = bs := by
        show (d.write w).data ((nameOf fbase args.itr ++ ".meta".toList).take ((nameOf fbase args.itr ++ ".meta".toList).length - 4) ++
          "data".toList) = bs
        rw [dataOf_meta]
        exact if_pos rfl
      rw [hdata]
      show tileVal args.endian ds bs k (Spec.within (box.start ds) q) = _
      rw [hstart, within_zero hq]
      unfold tileVal
      rw [hp, hR, hZ]
      show _ = (itemsOf args.prec args.endian bs : List F).getD (ravel (1 :: prodL lead :: dims) (0 :: k :: q)) Arith.zero
      congr 1
      show _ = 0 * _ + _
      rw [Nat.zero_mul, Nat.zero_add]

theorem tileHead_at [PyFloat F] [F64 F] [F32 F] {pf : Text → Py F} {d : MdsDir} {args : RdArgs F} {ds : DataSet} {L : List (List Nat)}
    {w : Win} {K : List Nat} (hr : Reads args ds L w K) {n : Text} {b : Box} {rest : Dict F} (ht : TileAt pf d ds n b rest) (nit : Nat) :
    tileHead pf d args nit none n = .ok (firstState args ds L w nit rest,
      ⟨(axesOf ds b L w).map (·.T.length), NdArr.pick ((axesOf ds b L w).map (·.T))⟩, srcOf ds b w, dataName n) := by
  have hst : stateFor args nit none (tileMeta ds b rest) = .ok (firstState args ds L w nit rest) := initState_eq hr ht.box ht.heads nit
  have hreg : regionOf args (firstState args ds L w nit rest).win (tileMeta ds b rest) = _ := regionOf_eq hr ht.box
  have hplace : placeOf (F := F) ((firstState args ds L w nit rest).arr.shape.drop 2) ((tgts ds b w).map (·.1)) ((tgts ds b w).map (·.2)) none =
      .ok ⟨(axesOf ds b L w).map (·.T.length), NdArr.pick ((axesOf ds b L w).map (·.T))⟩ := placeOf_eq ht.box hr.levOK hr.region.ok
  unfold tileHead
  rw [show d.openText n = .ok (d.text n) from if_pos ht.metaIn, Py.ok_bind, ht.metaData, Py.ok_bind, hst, Py.ok_bind, hreg, Py.ok_bind]
  dsimp only
  have hm2g : (tileMeta ds b rest).m2g = none := rfl
  rw [hm2g, hplace, Py.ok_bind]
  rfl

theorem write_setData (d : MdsDir) (b t : Text) (x y : List Byte) :
    (d.write ⟨b, t, x⟩).setData (b ++ ".data".toList) y = d.write ⟨b, t, y⟩ := by
  unfold MdsDir.setData MdsDir.write
  dsimp only
  congr 1
  funext m
  split <;> rfl

namespace Spec

/-- The number whose bytes are all zero. -/
def zeroBits [F64 F] [F32 F] (p : Prec) : F := match p with
  | .f32 => F32.ofBits32 0
  | .f64 => F64.ofBits 0

end Spec

theorem bytesNat_zero (n : Nat) : bytesNat (List.replicate n (0 : Byte)) = 0 := by
  induction n with
  | zero => rfl
  | succ n ih => rw [List.replicate_succ]; simp [bytesNat] at ih ⊢; exact ih

theorem itemOf_zero [F64 F] [F32 F] (p : Prec) (e : Endian) : itemOf p e (List.replicate p.size (0 : Byte)) = (Spec.zeroBits p : F) := by
  have h : e.order (List.replicate p.size (0 : Byte)) = List.replicate p.size 0 := by cases e <;> simp [Endian.order]
  unfold itemOf
  dsimp only
  rw [h, bytesNat_zero]
  cases p <;> rfl

/-- C107: a data file that was cut short cannot be read, but with a memory map it can: the file is filled up with zeros, on disk too, and
the numbers that were lost are read as zero. -/
theorem C107_memmap_short [PyFloat F] [F64 F] [F32 F] [LawfulF64 F] (pf : Text → Py F) (fe : F → Text) (rnd : F → F) (d : MdsDir)
    (fbase : Text) (arr : NdArr F) (args : WrArgs F) (fill : F) (lead dims : List Nat)
    (hsplit : Spec.Split args.ndims args.nrecords arr.shape lead dims) (h2 : 2 ≤ dims.length) (hlead : ∀ n ∈ lead, 0 < n)
    (hlab : Spec.Labels pf fe rnd args) (hstale : ∀ n ∈ d.names, ¬ Spec.TileName (nameOf fbase args.itr) n) (k : Nat) (hk : 0 < k)
    (hcut : k < arr.toList.length * args.prec.size) :
    ∃ (w : Written) (b : NdArr F), wrmds fe fbase arr args = .ok w ∧
      rdmds pf (d.write { w with data := w.data.take k }) fbase { itrs := Spec.itrsFor args.itr, endian := args.endian, fill := fill } =
        .error .valueError ∧
      rdmdsMm pf (d.write { w with data := w.data.take k }) fbase { itrs := Spec.itrsFor args.itr, endian := args.endian, fill := fill } =
        (d.write { w with data := w.data.take k ++ List.replicate (w.data.length - k) 0 }, .ok b) ∧
      b.shape = (if 1 < prodL lead then [prodL lead] else []) ++ dims ∧
      ∀ i x, arr.toList[i]? = some x → ((i + 1) * args.prec.size ≤ k → b.toList[i]? = some (Spec.rounded args.prec x)) ∧
        (k ≤ i * args.prec.size → b.toList[i]? = some (Spec.zeroBits args.prec)) := by
  have hdne : dims ≠ [] := by intro e; rw [e] at h2; simp at h2
  obtain ⟨nd, hw⟩ := wrmds_split fe fbase hsplit hdne
  have hs := size_pos args.prec
  let full : List Byte := arr.toList.flatMap (itemBytes args.prec args.endian)
  have hfl : full.length = arr.toList.length * args.prec.size :=
    length_flatMap_const arr.toList (itemBytes args.prec args.endian) args.prec.size (fun x _ => itemBytes_length args.prec args.endian x)
  have hal : arr.toList.length = prodL lead * prodL dims := by rw [NdArr.toList_length, ← prodL_append, hsplit.parts]
  let bs := full.take k ++ List.replicate (full.length - k) (0 : Byte)
  have hbs : bs.length = prodL lead * prodL dims * args.prec.size := by
    rw [List.length_append, List.length_take, List.length_replicate, ← hal, ← hfl]
    omega
  obtain ⟨b, h3, h4, h5⟩ := rdmds_bytes (pf := pf) (fe := fe) (rnd := rnd) d fill nd h2 hlead hlab hstale bs hbs
  obtain ⟨ds, box, rest, hp, hR, hgl, hG, hZ, hstart, hout, hsame, hat⟩ := wrFiles_tile (fbase := fbase) d nd lead h2 hlab
  have hat := hat bs hbs
  let rd : RdArgs F := { itrs := Spec.itrsFor args.itr, endian := args.endian, fill := fill }
  have hits : ∀ d, itrsOf d fbase rd.itrs = [args.itr] := by intro d; show itrsOf d fbase (Spec.itrsFor args.itr) = _; cases args.itr <;> rfl
  have hsel : Spec.Selects rd ds [] none (List.range ds.R) := ⟨by rw [hgl]; trivial, by rw [hgl]; rfl, trivial, rfl⟩
  have hmf : ∀ bs, (d.write (wrFiles fe fbase args nd lead dims bs)).metafiles (nameOf fbase args.itr) = [nameOf fbase args.itr ++ ".meta".toList] :=
    fun bs => metafiles_written (w := wrFiles fe fbase args nd lead dims bs) hstale
  have hdn : dataName (nameOf fbase args.itr ++ ".meta".toList) = nameOf fbase args.itr ++ ".data".toList := dataOf_meta _
  have hdata : ∀ bs, (d.write (wrFiles fe fbase args nd lead dims bs)).data (nameOf fbase args.itr ++ ".data".toList) = bs :=
    fun bs => if_pos rfl
  have hin : ∀ bs, nameOf fbase args.itr ++ ".data".toList ∈ (d.write (wrFiles fe fbase args nd lead dims bs)).names :=
    fun bs => write_mem.2 (.inr (.inr rfl))
  -- what comes before the data
  have hhead := tileHead_at (reads_of hsel) hat 1
  rw [hdn] at hhead
  have hhead' : tileHead pf (d.write (wrFiles fe fbase args nd lead dims (full.take k))) rd 1 none (nameOf fbase args.itr ++ ".meta".toList) = _ :=
    hhead
  let st0 := firstState rd ds [] none 1 rest
  let pl : Place := ⟨(axesOf ds box [] none).map (·.T.length), NdArr.pick ((axesOf ds box [] none).map (·.T))⟩
  have hneed : prodL (st0.nrecords :: st0.recshape) = arr.toList.length := by
    show ds.R * prodL ds.Z = _
    rw [hR, hZ, hal]
  -- reading the complete file
  have hone : ∀ bs, rdmds pf (d.write (wrFiles fe fbase args nd lead dims bs)) fbase rd =
      (tileStep pf (d.write (wrFiles fe fbase args nd lead dims bs)) rd 1 0 none (nameOf fbase args.itr ++ ".meta".toList) >>= finishRd rd 1) := by
    intro bs
    rw [rdmds_finish, hits]
    show (List.foldlM (itrStep pf (d.write (wrFiles fe fbase args nd lead dims bs)) fbase rd 1) none [(args.itr, 0)] >>= finishRd rd 1) = _
    rw [List.foldlM_cons]
    simp only [List.foldlM_nil]
    have e : itrStep pf (d.write (wrFiles fe fbase args nd lead dims bs)) fbase rd 1 none (args.itr, 0) =
        tileStep pf (d.write (wrFiles fe fbase args nd lead dims bs)) rd 1 0 none (nameOf fbase args.itr ++ ".meta".toList) := by
      have e1 : itrStep pf (d.write (wrFiles fe fbase args nd lead dims bs)) fbase rd 1 none (args.itr, 0) =
          match (d.write (wrFiles fe fbase args nd lead dims bs)).metafiles (nameOf fbase args.itr) with
          | [] => .error .ioError
          | files => files.foldlM (tileStep pf (d.write (wrFiles fe fbase args nd lead dims bs)) rd 1 0) none := by
        cases args.itr <;> rfl
      rw [e1, hmf]
      show (tileStep pf _ rd 1 0 none _ >>= pure) = _
      rw [bind_pure]
    rw [e, bind_pure]
  have h3 : rdmds pf (d.write (wrFiles fe fbase args nd lead dims bs)) fbase rd = .ok b := h3
  rw [hone] at h3
  obtain ⟨st, h6, h7⟩ := bind_ok_inv h3
  rw [tileStep_head, hhead, Py.ok_bind] at h6
  obtain ⟨a1, h8, h9⟩ := bind_ok_inv h6
  have hopen : (d.write (wrFiles fe fbase args nd lead dims bs)).openData (nameOf fbase args.itr ++ ".data".toList) = .ok bs := by
    unfold MdsDir.openData
    rw [if_pos (hin bs), hdata]
  have h8 : readAll rd st0 0 pl none (fun _ => .ok bs) = .ok a1 := by
    rw [← hopen]; exact h8
  obtain ⟨-, h10⟩ := assignMapped_all rfl rfl h8
  have hbf : bs.length = full.length := by rw [hbs, ← hal, hfl]
  have hbl : bs.length = prodL (st0.nrecords :: st0.recshape) * st0.prec.size := by
    rw [hneed, hbs, ← hal]
    show _ = _ * ds.prec.size
    rw [hp]
  rw [← hbl, List.take_length] at h10
  refine ⟨_, b, hw, ?_, ?_, h4, ?_⟩
  · show rdmds pf (d.write (wrFiles fe fbase args nd lead dims (full.take k))) fbase rd = _
    rw [hone, tileStep_head, hhead', Py.ok_bind]
    have e : readTile rd st0 0 pl none (fun _ => (d.write (wrFiles fe fbase args nd lead dims (full.take k))).openData
        (nameOf fbase args.itr ++ ".data".toList)) = .error .valueError := by
      have hopen : (d.write (wrFiles fe fbase args nd lead dims (full.take k))).openData (nameOf fbase args.itr ++ ".data".toList) =
          .ok (full.take k) := by
        unfold MdsDir.openData
        rw [if_pos (hin _), hdata]
      unfold readTile
      show readAll rd ⟨ds.prec, ds.Z, ds.R, st0.recs, st0.win, rest, st0.arr⟩ 0 pl none _ = _
      rw [readAll_mk, if_pos (show nonEmptySrc none = true from rfl), hopen, Py.ok_bind, if_pos]
      rw [itemsOf_length, hp, List.length_take, hfl, Nat.min_eq_left (Nat.le_of_lt hcut)]
      have : k / args.prec.size < arr.toList.length := by rw [Nat.div_lt_iff_lt_mul hs]; exact hcut
      have e : prodL (ds.R :: ds.Z) = arr.toList.length := hneed
      omega
    have e' : (readTile rd st0 0 pl none (fun _ => (d.write (wrFiles fe fbase args nd lead dims (full.take k))).openData
        (nameOf fbase args.itr ++ ".data".toList)) >>= fun arr => (.ok (some { st0 with arr := arr }) : Py (Option (RdState F)))) =
        .error .valueError := by rw [e]; rfl
    exact congrArg (· >>= finishRd rd 1) e'
  · show rdmdsMm pf (d.write (wrFiles fe fbase args nd lead dims (full.take k))) fbase rd = (d.write (wrFiles fe fbase args nd lead dims bs), .ok b)
    have hmm : (d.write (wrFiles fe fbase args nd lead dims (full.take k))).memmap (nameOf fbase args.itr ++ ".data".toList)
        (prodL (st0.nrecords :: st0.recshape) * st0.prec.size) = (d.write (wrFiles fe fbase args nd lead dims bs), .ok bs) := by
      have hl : (full.take k).length = k := by rw [List.length_take]; omega
      have e : full.take k ++ List.replicate (bs.length - (full.take k).length) (0 : Byte) = bs := by
        show _ = full.take k ++ _
        rw [hl, hbf]
      rw [← hbl]
      unfold MdsDir.memmap
      rw [if_pos (hin _), hdata]
      dsimp only
      rw [e, if_neg (by intro h; rw [h] at hbf; simp only [List.length_nil] at hbf; omega), if_pos (by omega), List.take_length]
      congr 1
      exact write_setData _ _ _ _ _
    have hstep : tileStepMm pf rd 1 0 (d.write (wrFiles fe fbase args nd lead dims (full.take k))) none (nameOf fbase args.itr ++ ".meta".toList) =
        (d.write (wrFiles fe fbase args nd lead dims bs), .ok st) := by
      unfold tileStepMm
      rw [hhead']
      dsimp only
      have hsrc : nonEmptySrc (srcOf ds box none) = true := rfl
      rw [if_pos hsrc, hmm]
      dsimp only
      congr 1
      rw [Py.ok_bind]
      show (assignMapped rd st0 0 pl none bs >>= _) = _
      rw [h10, Py.ok_bind]
      exact h9
    unfold rdmdsMm
    rw [hits]
    have h1 : dirFold (itrStepMm pf fbase rd 1) (d.write (wrFiles fe fbase args nd lead dims (full.take k))) none [(args.itr, 0)] =
        (d.write (wrFiles fe fbase args nd lead dims bs), .ok st) := by
      unfold dirFold
      rw [itrStepMm_name, hmf, if_neg (by simp)]
      unfold dirFold
      rw [hstep]
      rfl
    show ((dirFold (itrStepMm pf fbase rd 1) _ none [(args.itr, 0)]).1, (dirFold (itrStepMm pf fbase rd 1) _ none [(args.itr, 0)]).2 >>= finishRd rd 1) = _
    rw [h1]
    dsimp only
    rw [Py.ok_bind, h7]
  · intro i x hx
    have hi : i < arr.toList.length := (List.getElem?_eq_some_iff.1 hx).1
    have hb : b.toList[i]? = some (itemOf args.prec args.endian ((bs.drop (i * args.prec.size)).take args.prec.size)) := by
      rw [h5, itemsOf_get]
      rw [hbs, Nat.mul_div_cancel _ hs, ← hal]
      exact hi
    have hsz : (i + 1) * args.prec.size ≤ full.length := by rw [hfl]; exact Nat.mul_le_mul_right _ hi
    rw [Nat.add_mul, Nat.one_mul] at hsz ⊢
    refine ⟨fun h => ?_, fun h => ?_⟩
    · rw [hb]
      have e : (bs.drop (i * args.prec.size)).take args.prec.size = (full.drop (i * args.prec.size)).take args.prec.size := by
        apply List.ext_getElem?
        intro j
        by_cases hj : j < args.prec.size
        · rw [List.getElem?_take_of_lt hj, List.getElem?_take_of_lt hj, List.getElem?_drop, List.getElem?_drop,
            List.getElem?_append_left (by rw [List.length_take]; omega), List.getElem?_take_of_lt (by omega)]
        · rw [List.getElem?_take_eq_none (by omega), List.getElem?_take_eq_none (by omega)]
      rw [e, ← itemsOf_get args.prec args.endian full i (by rw [hfl, Nat.mul_div_cancel _ hs]; exact hi)]
      show (itemsOf args.prec args.endian (arr.toList.flatMap (itemBytes args.prec args.endian)))[i]? = _
      rw [itemsOf_bytes, List.getElem?_map, hx]
      rfl
    · rw [hb, ← itemOf_zero args.prec args.endian]
      congr 2
      apply List.ext_getElem?
      intro j
      by_cases hj : j < args.prec.size
      · rw [List.getElem?_take_of_lt hj, List.getElem?_drop, List.getElem?_append_right (by rw [List.length_take]; omega),
          List.getElem?_replicate, List.getElem?_replicate, if_pos (by rw [List.length_take]; omega), if_pos hj]
      · rw [List.getElem?_take_eq_none (by omega), List.getElem?_replicate, if_neg hj]

/-! ## Examples -/

namespace ExMm

open ExTiles (pf)

theorem noEmpty : Spec.NoEmptyData ExTiles.dir := by
  intro n hn
  have h : ∀ m : Text, ExTiles.dir.data m ≠ [] := by
    intro m
    show (if m = ExTiles.data1 then ExTiles.bytesOf ExTiles.tile1 else ExTiles.bytesOf ExTiles.tile2) ≠ []
    split <;> decide +kernel
  exact h _

theorem recordsThere : Spec.RecordsThere pf ExTiles.dir "T".toList [-1] := by
  intro n _ _ es R h1 h2 z hz
  have h : ∀ m : Text, ∃ v, parsemeta pf (ExTiles.dir.text m) = .ok (("dimList".toList, v) :: ExTiles.shared) := by
    intro m
    show ∃ v, parsemeta pf (if m = ExTiles.name1 then ExTiles.text1 else ExTiles.text2) = _
    split
    · exact ⟨ExTiles.own1, by decide +kernel⟩
    · exact ⟨ExTiles.own2, by decide +kernel⟩
  obtain ⟨v, hv⟩ := h n
  rw [hv] at h1
  injection h1 with h1
  rw [← h1, ExTiles.shared_get (by decide +kernel)] at h2
  have h3 : ExTiles.shared.get "nrecords".toList = some [.int 2] := by decide +kernel
  rw [h3] at h2
  injection h2 with h2
  injection h2 with h2
  injection h2 with h2
  rw [List.mem_singleton.1 hz, ← h2]
  decide

/-- The hypotheses of C106 hold for a selection of records, levels and columns from two tiles. -/
example : ∃ a d', rdmds pf ExTiles.dir "T".toList ExTiles.args = .ok a ∧ rdmdsMm pf ExTiles.dir "T".toList ExTiles.args = (d', .ok a) := by
  cases h : rdmds pf ExTiles.dir "T".toList ExTiles.args with
  | error e =>
    have : (rdmds pf ExTiles.dir "T".toList ExTiles.args).isOk = true := by decide +kernel
    rw [h] at this; cases this
  | ok a =>
    obtain ⟨d', h1, -⟩ := C106_memmap_same pf ExTiles.dir "T".toList ExTiles.args a noEmpty
      (fun s hs => by cases hs; exact ⟨by decide, recordsThere⟩) h
    exact ⟨a, d', rfl, h1⟩

example : (rdmdsMm pf ExTiles.dir "T".toList ExTiles.args).2.map (fun a => (a.shape, a.toList.map (·.bits.toNat))) =
    .ok ([2, 1, 3], [7, 206, 7, 7, 206, 7]) := by decide +kernel

/-- `rec=[2]` of two records: without a memory map the data file is read beyond its end (`ValueError`), with one there is an
`IndexError`. -/
example : ((rdmdsMm pf ExTiles.dir "T".toList { ExTiles.args with rec? := some (.many [2]) }).2.map fun a => a.shape) = .error .indexError ∧
    ((rdmds pf ExTiles.dir "T".toList { ExTiles.args with rec? := some (.many [2]) }).map fun a => a.shape) = .error .valueError := by
  decide +kernel

open ExWr in
example := C107_memmap_short pf fe id dir "T".toList arr args ⟨0⟩ [2, 1] [2, 3] split (by decide) (by decide) labels noStale 20 (by decide)
  (by decide +kernel)

/-- After 20 of 96 bytes two numbers are left, of the third only half the bytes. -/
example : ((do
    let w ← wrmds ExWr.fe "T".toList ExWr.arr ExWr.args
    let r := rdmdsMm pf (ExWr.dir.write { w with data := w.data.take 20 }) "T".toList { itrs := .one 12, fill := ⟨0⟩ }
    let b ← r.2
    return ((r.1.data "T.0000000012.data".toList).length, b.toList.map (·.bits.toNat))) : Py (Nat × List Nat)) =
    .ok (96, [10, 11, 0, 0, 0, 0, 0, 0, 0, 0, 0, 0]) := by decide +kernel

end ExMm

end SG
