import Verif.Model.MdsWrite
import Verif.Props.MdsReturn
import Mathlib.Algebra.Order.Floor.Ring
import Mathlib.Data.Real.Archimedean
/-! # What `wrmds` leaves when it raises, and `deltat` (C111, C112) -/

set_option linter.unusedSectionVars false
namespace SG
variable {F : Type}

/-- The call with the arguments `args`. -/
def WrArgs.call (args : WrArgs F) : WrFull F :=
  { itr := args.itr.map fun n : Nat => (n : Int), prec := args.prec, ndims := args.ndims, nrecords := args.nrecords, times := args.times,
    fields := args.fields, simulation := args.simulation, endian := args.endian }

/-! ## The two models of `wrmds` -/

theorem ndimsOf_only (args : WrArgs F) (shape : List Nat) :
    ndimsOf { ndims := args.ndims, nrecords := args.nrecords : WrArgs F } shape = ndimsOf args shape := rfl

theorem wrShape_eq (arr : NdArr F) (c : WrFull F) : wrShape arr c =
    (ndimsOf { ndims := c.ndims, nrecords := c.nrecords : WrArgs F } arr.shape).bind fun nd =>
      if c.nrecords.any (· ≠ prodL (if nd = 0 then [] else arr.shape.take (arr.shape.length - nd))) ∨
        c.dimlist.any (· ≠ (arr.shape.reverse.take nd).map fun n : Nat => (n : Int)) then .error .valueError
      else .ok (nd, arr.shape.reverse.take nd, prodL (if nd = 0 then [] else arr.shape.take (arr.shape.length - nd))) := by
  unfold wrShape
  congr 1
  funext nd
  dsimp only
  by_cases h1 : c.nrecords.any (· ≠ prodL (if nd = 0 then [] else arr.shape.take (arr.shape.length - nd))) = true
  · rw [if_pos h1, if_pos (Or.inl h1)]; rfl
  · rw [if_neg h1]
    by_cases h2 : c.dimlist.any (· ≠ (arr.shape.reverse.take nd).map fun n : Nat => (n : Int)) = true
    · rw [if_pos h2, if_pos (Or.inr h2)]; rfl
    · rw [if_neg h2]
      exact (if_neg (by rintro (h | h); exacts [h1 h, h2 h])).symm

theorem metaText_parts (fe : F → Text) (a : MetaArgs F) : metaText fe a =
    metaHead a.simulation a.ndims ++ metaTail fe a.dims a.prec a.nrec (a.itr.map fun n : Nat => (n : Int)) a.times a.fields := by
  unfold metaText metaHead metaTail
  cases a.itr <;> simp only [List.append_assoc, Option.map] <;> rfl

theorem nameOfZ_nat (fbase : Text) (itr : Option Nat) : nameOfZ fbase (itr.map fun n : Nat => (n : Int)) = nameOf fbase itr := by
  cases itr <;> rfl

theorem names_put (names : List Text) {a b : Text} (hne : b ≠ a) :
    (if b ∈ (if a ∈ names then names else names ++ [a]) then (if a ∈ names then names else names ++ [a])
      else (if a ∈ names then names else names ++ [a]) ++ [b]) = names ++ [a, b].filter fun n => n ∉ names := by
  by_cases h1 : a ∈ names
  · rw [if_pos h1]
    by_cases h2 : b ∈ names
    · rw [if_pos h2]; simp [h1, h2]
    · rw [if_neg h2]; simp [h1, h2]
  · rw [if_neg h1]
    by_cases h2 : b ∈ names
    · rw [if_pos (List.mem_append_left _ h2)]; simp [h1, h2]
    · rw [if_neg (by rw [List.mem_append, List.mem_singleton]; rintro (h | h); exacts [h2 h, hne h])]; simp [h1, h2]

theorem put_write (d : MdsDir) (w : Written) :
    (d.putText (w.base ++ ".meta".toList) w.text).putData (w.base ++ ".data".toList) w.data = d.write w := by
  unfold MdsDir.putText MdsDir.putData MdsDir.write
  have hne : w.base ++ ".data".toList ≠ w.base ++ ".meta".toList := fun h => by
    have := List.append_cancel_left h
    exact absurd this (by decide +kernel)
  congr 1
  exact names_put d.names hne

/-- A successful `wrmds` in terms of the directory. -/
theorem wrmdsOn_ok [F64 F] [F32 F] (fe : F → Text) (ta : TimeArith F) (d : MdsDir) (fbase : Text) (arr : NdArr F) (args : WrArgs F)
    (w : Written) (h : wrmds fe fbase arr args = .ok w) : wrmdsOn fe ta d fbase arr args.call = (d.write w, .ok ()) := by
  unfold wrmds at h
  obtain ⟨nd, hnd, h⟩ := bind_ok_inv h
  dsimp only at h
  have hshape : wrShape arr args.call = .ok (nd, arr.shape.reverse.take nd,
      prodL (if nd = 0 then [] else arr.shape.take (arr.shape.length - nd))) ∧ arr.shape.reverse.take nd ≠ [] ∧
      w = ⟨nameOf fbase args.itr, metaText fe ⟨nd, arr.shape.reverse.take nd, args.prec,
        prodL (if nd = 0 then [] else arr.shape.take (arr.shape.length - nd)), args.itr, args.times, args.fields, args.simulation⟩,
        arr.toList.flatMap (itemBytes args.prec args.endian)⟩ := by
    rw [wrShape_eq]
    have e : ndimsOf { ndims := args.call.ndims, nrecords := args.call.nrecords : WrArgs F } arr.shape = .ok nd := hnd
    rw [e]
    show (if _ then _ else _) = _ ∧ _
    by_cases hd : arr.shape.reverse.take nd = []
    · exfalso
      cases hr : args.nrecords with
      | none => rw [hr] at h; dsimp only at h; rw [if_pos hd] at h; cases h
      | some r =>
        rw [hr] at h; dsimp only at h
        by_cases hq : r ≠ prodL (if nd = 0 then [] else arr.shape.take (arr.shape.length - nd))
        · rw [if_pos hq] at h; cases h
        · rw [if_neg hq, if_pos hd] at h; cases h
    · refine ⟨?_, hd, ?_⟩
      · rw [if_neg]
        rintro (h1 | h1)
        · have h1 : args.nrecords.any (· ≠ prodL (if nd = 0 then [] else arr.shape.take (arr.shape.length - nd))) = true := h1
          cases hr : args.nrecords with
          | none => rw [hr] at h1; cases h1
          | some r =>
            rw [hr] at h h1
            dsimp only at h
            rw [if_pos (by simpa using h1)] at h
            cases h
        · cases h1
      · cases hr : args.nrecords with
        | none => rw [hr] at h; dsimp only at h; rw [if_neg hd] at h; injection h with h; rw [← h]; cases args.itr <;> rfl
        | some r =>
          rw [hr] at h; dsimp only at h
          by_cases hq : r ≠ prodL (if nd = 0 then [] else arr.shape.take (arr.shape.length - nd))
          · rw [if_pos hq] at h; cases h
          · rw [if_neg hq, if_neg hd] at h; injection h with h; rw [← h]; cases args.itr <;> rfl
  obtain ⟨h1, h2, h3⟩ := hshape
  have hh : wrHead ta arr args.call = .ok (nd, arr.shape.reverse.take nd,
      prodL (if nd = 0 then [] else arr.shape.take (arr.shape.length - nd)), args.itr.map fun n : Nat => (n : Int), args.times) := by
    unfold wrHead
    rw [h1]
    rfl
  unfold wrmdsOn
  rw [hh]
  dsimp only
  rw [if_neg h2, ← put_write, h3]
  dsimp only
  rw [metaText_parts, nameOfZ_nat]
  rfl

/-! ## C111 -/

namespace Spec

/-- Nothing but the text of the file `m` (which may be new) differs. -/
structure OnlyText (d d' : MdsDir) (m : Text) : Prop where
  data : d'.data = d.data
  names : ∀ n, n ≠ m → (n ∈ d'.names ↔ n ∈ d.names)
  text : ∀ n, n ≠ m → d'.text n = d.text n

end Spec

theorem putText_only (d : MdsDir) (m t : Text) : Spec.OnlyText d (d.putText m t) m where
  data := rfl
  names := by
    intro n hn
    show n ∈ (if m ∈ d.names then d.names else d.names ++ [m]) ↔ _
    by_cases h : m ∈ d.names
    · rw [if_pos h]
    · rw [if_neg h, List.mem_append, List.mem_singleton]
      exact or_iff_left hn
  text := fun n hn => if_neg hn

/-- Nothing is folded away completely unless the number of records is given, and then not without an error. -/
theorem ndimsOf_zero {shape : List Nat} {c : WrFull F} (hs : shape ≠ [])
    (hn : c.ndims ≠ some 0) (h : ndimsOf { ndims := c.ndims, nrecords := c.nrecords : WrArgs F } shape = .ok 0) :
    c.nrecords.any (· ≠ 1) = true := by
  unfold ndimsOf at h
  cases hd : c.ndims with
  | some k => rw [hd] at h hn; dsimp only at h; injection h with h; exact absurd (by rw [h]) hn
  | none =>
    rw [hd] at h
    dsimp only at h
    have hl := List.length_pos_iff.2 hs
    cases hr : c.nrecords with
    | none => rw [hr] at h; dsimp only at h; injection h with h; omega
    | some r =>
      rw [hr] at h
      dsimp only at h
      obtain ⟨⟨m, ds⟩, h4, h5⟩ := bind_ok_inv h
      dsimp only at h5
      simp only [Option.any_some, decide_eq_true_eq]
      rintro rfl
      rw [foldRecords.eq_def] at h4
      dsimp only at h4
      rw [if_pos (Nat.le_refl 1)] at h4
      injection h4 with h4
      injection h4 with h4 h6
      rw [← h4, ← h6, if_neg (by simp)] at h5
      injection h5 with h5
      omega

/-- C111: if `wrmds` raises, no data file is touched and at most the meta file has changed; and not even that if a record has at least
one dimension. -/
theorem C111_failed_write [F64 F] [F32 F] (fe : F → Text) (ta : TimeArith F) (d : MdsDir) (fbase : Text) (arr : NdArr F) (c : WrFull F)
    (e : PyErr) (h : (wrmdsOn fe ta d fbase arr c).2 = .error e) :
    (∃ x, Spec.OnlyText d (wrmdsOn fe ta d fbase arr c).1 (fbase ++ x ++ ".meta".toList)) ∧
      (arr.shape ≠ [] → c.ndims ≠ some 0 → (wrmdsOn fe ta d fbase arr c).1 = d) := by
  unfold wrmdsOn at h ⊢
  cases hh : wrHead ta arr c with
  | error e' =>
    exact ⟨⟨[], ⟨rfl, fun _ _ => Iff.rfl, fun _ _ => rfl⟩⟩, fun _ _ => rfl⟩
  | ok v =>
    obtain ⟨nd, dims, nrec, itr, times⟩ := v
    rw [hh] at h
    dsimp only at h ⊢
    by_cases hd : dims = []
    · rw [if_pos hd]
      refine ⟨?_, fun hs hn => ?_⟩
      · cases itr with
        | none => exact ⟨[], by rw [List.append_nil]; exact putText_only _ _ _⟩
        | some z => exact ⟨itrTextZ z, putText_only _ _ _⟩
      · exfalso
        unfold wrHead at hh
        obtain ⟨⟨nd', dims', nrec'⟩, h1, h2⟩ := bind_ok_inv hh
        obtain ⟨⟨itr', times'⟩, _, h4⟩ := bind_ok_inv h2
        injection h4 with h4
        injection h4 with e1 h4
        injection h4 with e2 h4
        rw [wrShape_eq] at h1
        obtain ⟨k, h5, h6⟩ := bind_ok_inv h1
        by_cases hc : (c.nrecords.any (· ≠ prodL (if k = 0 then [] else arr.shape.take (arr.shape.length - k))) = true) ∨
            c.dimlist.any (· ≠ (arr.shape.reverse.take k).map fun n : Nat => (n : Int)) = true
        · rw [if_pos hc] at h6; cases h6
        · rw [if_neg hc] at h6
          injection h6 with h6
          injection h6 with e3 h6
          injection h6 with e4 h6
          have hk : k = 0 := by
            have : (arr.shape.reverse.take k).length = 0 := by rw [e4, e2, hd]; rfl
            rw [List.length_take, List.length_reverse] at this
            have := List.length_pos_iff.2 hs
            omega
          rw [hk] at h5 hc
          exact hc (.inl (ndimsOf_zero hs hn h5))
    · rw [if_neg hd] at h
      cases h

theorem parse_metaHead (pf : Text → Py F) (s : Option Text) (n : Nat) (hs : ∀ t ∈ s, Spec.Name t) :
    ∃ es, parsemeta pf (metaHead s n) = .ok es ∧ es.get "dimList".toList = none := by
  have hnd : Parses pf (" nDims = [ ".toList ++ padLeft 3 (natText n) ++ " ];\n".toList) [("nDims".toList, [.int n])] :=
    parses_nat pf "nDims".toList 3 n (by decide +kernel) (by decide +kernel) (by decide +kernel) (by decide +kernel)
  cases s with
  | none =>
    refine ⟨[("nDims".toList, [.int n])], ?_, ?_⟩
    · show parsemeta pf (" nDims = [ ".toList ++ padLeft 3 (natText n) ++ " ];\n".toList) = .ok [("nDims".toList, [.int n])]
      have := hnd [] [] (by simp)
      rw [List.append_nil, List.nil_append] at this
      exact this
    · rfl
  | some t =>
    have := (parses_simulation pf t (hs t rfl)).append hnd
    refine ⟨[("simulation".toList, [.str t])] ++ [("nDims".toList, [.int n])], ?_, ?_⟩
    · show parsemeta pf (metaHead (some t) n) = .ok ([("simulation".toList, [.str t])] ++ [("nDims".toList, [.int n])])
      have := this [] [] (by show List.Nodup ["simulation".toList, "nDims".toList]; decide +kernel)
      rw [List.append_nil, List.nil_append] at this
      exact this
    · rfl

/-- C111: an array without dimensions (or `ndims=0`) is refused with `ValueError`, but only after the meta file was overwritten: with it
the data that were there before can no longer be read (`KeyError`). -/
theorem C111_meta_file_destroyed [PyFloat F] [F64 F] [F32 F] (pf : Text → Py F) (fe : F → Text) (ta : TimeArith F) (d : MdsDir)
    (fbase : Text) (arr : NdArr F) (c : WrFull F) (itr : Option Nat) (rd : RdArgs F)
    (h0 : arr.shape = [] ∨ c.ndims = some 0) (hrec : ∀ r ∈ c.nrecords, r = 1) (hdim : ∀ l ∈ c.dimlist, l = [])
    (hitr : c.itr = itr.map fun n : Nat => (n : Int)) (hdt : c.deltat = none)
    (hsim : ∀ s ∈ c.simulation, Spec.Name s) (hstale : ∀ n ∈ d.names, ¬ Spec.TileName (nameOf fbase itr) n)
    (hrd : rd.itrs = Spec.itrsFor itr) :
    (wrmdsOn fe ta d fbase arr c).2 = .error .valueError ∧
      rdmds pf (wrmdsOn fe ta d fbase arr c).1 fbase rd = .error .keyError ∧
      (wrmdsOn fe ta d fbase arr c).1.data = d.data := by
  -- the shape
  have hnd : ∃ nd, ndimsOf { ndims := c.ndims, nrecords := c.nrecords : WrArgs F } arr.shape = .ok nd ∧ arr.shape.reverse.take nd = [] ∧
      prodL (if nd = 0 then [] else arr.shape.take (arr.shape.length - nd)) = 1 := by
    rcases h0 with h0 | h0
    · rw [h0]
      have hp : ∀ nd, prodL (if nd = 0 then [] else ([] : List Nat).take (([] : List Nat).length - nd)) = 1 := by
        intro nd; split <;> simp [prodL]
      cases hn : c.ndims with
      | some k => exact ⟨k, by unfold ndimsOf; rfl, by simp, hp k⟩
      | none =>
        cases hr : c.nrecords with
        | none => exact ⟨0, rfl, rfl, rfl⟩
        | some r =>
          have : r = 1 := hrec r (by rw [hr]; rfl)
          subst this
          refine ⟨0, ?_, rfl, rfl⟩
          unfold ndimsOf
          dsimp only
          rw [foldRecords.eq_def]
          rfl
    · refine ⟨0, ?_, by simp, rfl⟩
      rw [h0]; rfl
  obtain ⟨nd, hnd, hdims, hnrec⟩ := hnd
  have hshape : wrShape arr c = .ok (nd, [], 1) := by
    rw [wrShape_eq, hnd]
    show (if _ then _ else _) = _
    rw [hdims, hnrec, if_neg]
    rintro (h | h)
    · cases hr : c.nrecords with
      | none => rw [hr] at h; cases h
      | some r => rw [hr, hrec r (by rw [hr]; rfl)] at h; simp at h
    · cases hr : c.dimlist with
      | none => rw [hr] at h; cases h
      | some r => rw [hr, hdim r (by rw [hr]; rfl)] at h; simp at h
  have hh : wrHead ta arr c = .ok (nd, [], 1, c.itr, c.times) := by
    unfold wrHead
    rw [hshape, Py.ok_bind]
    dsimp only
    unfold wrTimes
    rw [hdt]
    rfl
  have hon : wrmdsOn fe ta d fbase arr c =
      (d.putText (nameOf fbase itr ++ ".meta".toList) (metaHead c.simulation nd), .error .valueError) := by
    unfold wrmdsOn
    rw [hh]
    dsimp only
    rw [if_pos rfl, hitr, nameOfZ_nat]
  rw [hon]
  refine ⟨rfl, ?_, rfl⟩
  dsimp only
  let d' := d.putText (nameOf fbase itr ++ ".meta".toList) (metaHead c.simulation nd)
  show rdmds pf d' fbase rd = _
  have hmem : nameOf fbase itr ++ ".meta".toList ∈ d'.names := by
    show _ ∈ (if _ then _ else _)
    by_cases h : nameOf fbase itr ++ ".meta".toList ∈ d.names
    · rw [if_pos h]; exact h
    · rw [if_neg h]; simp
  have hno : ∀ m ∈ d'.names, ¬ Spec.TileName (nameOf fbase itr) m := by
    intro m hm ht
    by_cases hme : m = nameOf fbase itr ++ ".meta".toList
    · have := tileName_length ht
      rw [hme, List.length_append] at this
      have e : ".meta".toList.length = 5 := rfl
      omega
    · exact hstale m (((putText_only d _ _).names m hme).1 hm) ht
  have hfound : ∀ m, m ∈ d'.metafiles (nameOf fbase itr) ↔ m = nameOf fbase itr ++ ".meta".toList := by
    intro m
    rw [mem_metafiles]
    constructor
    · rintro ⟨hm, ht | ⟨_, he⟩⟩
      · exact absurd ht (hno m hm)
      · exact he
    · rintro rfl
      exact ⟨hmem, .inr ⟨hno, rfl⟩⟩
  have hstep : tileStep pf d' rd 1 0 none (nameOf fbase itr ++ ".meta".toList) = .error .keyError := by
    obtain ⟨es, h1, h2⟩ := parse_metaHead pf c.simulation nd hsim
    unfold tileStep
    have ht : d'.openText (nameOf fbase itr ++ ".meta".toList) = .ok (metaHead c.simulation nd) := by
      unfold MdsDir.openText
      rw [if_pos hmem]
      congr 1
      exact if_pos rfl
    have hm : readmeta pf (metaHead c.simulation nd) = .error .keyError := by
      unfold readmeta
      rw [h1, Py.ok_bind, h2]
    rw [ht, Py.ok_bind, hm]
    rfl
  have hits : itrsOf d' fbase rd.itrs = [itr] := by rw [hrd]; cases itr <;> rfl
  unfold rdmds
  dsimp only
  rw [hits]
  show (do let x ← ((itrStep pf d' fbase rd 1 none (itr, 0)) >>= fun s => (pure s : Py (Option (RdState F)))); _) = _
  have : itrStep pf d' fbase rd 1 none (itr, 0) = .error .keyError := by
    rw [itrStep_name]
    cases hf : d'.metafiles (nameOf fbase itr) with
    | nil => have := (hfound _).2 rfl; rw [hf] at this; cases this
    | cons a l =>
      rw [if_neg (List.cons_ne_nil _ _)]
      have ha : a = nameOf fbase itr ++ ".meta".toList := (hfound a).1 (by rw [hf]; simp)
      rw [List.foldlM_cons, ha, hstep]
      rfl
  rw [this]
  rfl

/-! ## C112 -/

namespace Spec

/-- `t//dt` is the integer part of the quotient of the values.  This need not be so for all numbers: C123 has the range for doubles. -/
def FloorLaw (val : F → ℝ) (ta : TimeArith F) (t dt : F) : Prop := 0 < val dt → ta.itrOf t dt = .ok ⌊val t / val dt⌋

/-- `n` is the number of whole time steps `dt` until `t`. -/
def StepOf (val : F → ℝ) (t dt : F) (n : Int) : Prop := n * val dt ≤ val t ∧ val t < (n + 1) * val dt

end Spec

theorem stepOf_floor {val : F → ℝ} {t dt : F} (h : 0 < val dt) (n : Int) : Spec.StepOf val t dt n ↔ n = ⌊val t / val dt⌋ := by
  unfold Spec.StepOf
  rw [← le_div_iff₀ h, ← div_lt_iff₀ h, eq_comm, Int.floor_eq_iff]

/-- C112: with `deltat` and one of `itr` and `times` the other one is computed; with both, `deltat` has no effect; with neither, the call
fails and changes nothing. -/
theorem C112_deltat [F64 F] [F32 F] (fe : F → Text) (ta : TimeArith F) (val : F → ℝ) (d : MdsDir) (fbase : Text)
    (arr : NdArr F) (c : WrFull F) (dt : F) (hpos : 0 < val dt) (hdt : c.deltat = some dt) :
    (∀ ts t, c.itr = none → c.times = some (ts ++ [t]) → Spec.FloorLaw val ta t dt → ∀ n, Spec.StepOf val t dt n →
      wrmdsOn fe ta d fbase arr c = wrmdsOn fe ta d fbase arr { c with itr := some n, deltat := none }) ∧
    (∀ n, c.itr = some n → c.times = none →
      wrmdsOn fe ta d fbase arr c = wrmdsOn fe ta d fbase arr { c with times := some [ta.timeOf dt n], deltat := none }) ∧
    (∀ n ts, c.itr = some n → c.times = some ts →
      wrmdsOn fe ta d fbase arr c = wrmdsOn fe ta d fbase arr { c with deltat := none }) ∧
    (c.itr = none → (c.times = none ∨ c.times = some []) →
      (∃ e, (wrmdsOn fe ta d fbase arr c).2 = .error e) ∧ (wrmdsOn fe ta d fbase arr c).1 = d) := by
  have key : ∀ c' : WrFull F, c'.ndims = c.ndims → c'.nrecords = c.nrecords → c'.dimlist = c.dimlist → c'.prec = c.prec →
      c'.fields = c.fields → c'.simulation = c.simulation → c'.endian = c.endian → wrTimes ta c = wrTimes ta c' →
      wrmdsOn fe ta d fbase arr c = wrmdsOn fe ta d fbase arr c' := by
    intro c' h1 h2 h3 h4 h5 h6 h7 h8
    unfold wrmdsOn
    have : wrHead ta arr c = wrHead ta arr c' := by
      unfold wrHead
      rw [← h8, wrShape_eq, wrShape_eq, h1, h2, h3]
    rw [this, h4, h5, h6, h7]
  refine ⟨fun ts t hi ht hta n hn => ?_, fun n hi ht => ?_, fun n ts hi ht => ?_, fun hi ht => ?_⟩
  · refine key _ rfl rfl rfl rfl rfl rfl rfl ?_
    unfold wrTimes
    rw [hdt, hi, ht]
    simp only [List.getLast?_append, List.getLast?_singleton, Option.some_or]
    rw [hta hpos, ← (stepOf_floor hpos n).1 hn]
    rfl
  · refine key _ rfl rfl rfl rfl rfl rfl rfl ?_
    unfold wrTimes
    rw [hdt, hi, ht]
  · refine key _ rfl rfl rfl rfl rfl rfl rfl ?_
    unfold wrTimes
    rw [hdt, hi, ht]
  · have he : ∃ e, wrTimes ta c = .error e := by
      unfold wrTimes
      rw [hdt, hi]
      rcases ht with ht | ht <;> rw [ht] <;> exact ⟨_, rfl⟩
    obtain ⟨e, he⟩ := he
    have hh : ∃ e, wrHead ta arr c = .error e := by
      unfold wrHead
      cases hs : wrShape arr c with
      | error e' => exact ⟨e', rfl⟩
      | ok v => rw [Py.ok_bind, he]; exact ⟨e, rfl⟩
    obtain ⟨e, hh⟩ := hh
    unfold wrmdsOn
    rw [hh]
    exact ⟨⟨e, rfl⟩, rfl⟩

/-- C112, from writing to reading: an array written with `deltat` and `times` is read under the number of whole steps until the last
time, and this number and the times come back. -/
theorem C112_number_from_times [PyFloat F] [F64 F] [F32 F] [LawfulF64 F] (pf : Text → Py F) (fe : F → Text) (rnd : F → F) (ta : TimeArith F)
    (val : F → ℝ) (d : MdsDir) (fbase : Text) (arr : NdArr F) (args : WrArgs F) (fill dt t : F) (ts : List F) (hta : Spec.FloorLaw val ta t dt)
    (n : Nat) (lead dims : List Nat) (hsplit : Spec.Split args.ndims args.nrecords arr.shape lead dims) (h2 : 2 ≤ dims.length)
    (hlead : ∀ n ∈ lead, 0 < n) (hlab : Spec.Labels pf fe rnd args) (hi : args.itr = none) (ht : args.times = some (ts ++ [t]))
    (hstale : ∀ m ∈ d.names, ¬ Spec.TileName (nameOf fbase (some n)) m) (hpos : 0 < val dt) (hn : Spec.StepOf val t dt n) :
    ∃ (d' : MdsDir) (b : NdArr F) (m : MetaDict F), wrmdsOn fe ta d fbase arr { args.call with deltat := some dt } = (d', .ok ()) ∧
      rdmdsMeta pf d' fbase { itrs := .one n, endian := args.endian, fill := fill } = .ok (b, [(n : Int)], m) ∧
      b.shape = (if 1 < prodL lead then [prodL lead] else []) ++ dims ∧ b.toList = arr.toList.map (Spec.rounded args.prec) ∧
      m.get "timestepnumber".toList = some (.list [.int n]) ∧
      m.get "timeinterval".toList = some (.lists [(ts ++ [t]).map fun t => .flt (rnd t)]) := by
  have hlab' : Spec.Labels pf fe rnd { args with itr := some n } := ⟨hlab.simulation, hlab.times, hlab.fields⟩
  obtain ⟨b, h3, h4, h5, h6, h7⟩ := rdmdsMeta_written pf fe rnd d fbase arr { args with itr := some n } fill lead dims hsplit h2 hlead hlab' hstale
  refine ⟨_, b, _, ?_, h7, h5, h6, ?_, ?_⟩
  · rw [((C112_deltat fe ta val d fbase arr { args.call with deltat := some dt } dt hpos rfl).1 ts t
      (by show args.itr.map _ = none; rw [hi]; rfl) ht hta n hn)]
    exact wrmdsOn_ok fe ta d fbase arr { args with itr := some n } _ h3
  · exact wrMeta_get rnd { args with itr := some n } (prodL lead) dims _
  · have := wrMeta_get rnd { args with itr := some n } (prodL lead) dims "timeinterval".toList
    rw [this]
    show args.times.map _ = _
    rw [ht]
    rfl

/-- C112, the other way: with `deltat` and `itr` the time in the meta file is `deltat*itr` as rounded by its text. -/
theorem C112_time_from_number [PyFloat F] [F64 F] [F32 F] [LawfulF64 F] (pf : Text → Py F) (fe : F → Text) (rnd : F → F) (ta : TimeArith F)
    (val : F → ℝ) (d : MdsDir) (fbase : Text) (arr : NdArr F) (args : WrArgs F) (fill dt : F)
    (n : Nat) (lead dims : List Nat) (hsplit : Spec.Split args.ndims args.nrecords arr.shape lead dims) (h2 : 2 ≤ dims.length)
    (hlead : ∀ n ∈ lead, 0 < n) (hi : args.itr = some n) (ht : args.times = none)
    (hlab : Spec.Labels pf fe rnd { args with times := some [ta.timeOf dt n] })
    (hstale : ∀ m ∈ d.names, ¬ Spec.TileName (nameOf fbase (some n)) m) (hpos : 0 < val dt) :
    ∃ (d' : MdsDir) (b : NdArr F) (m : MetaDict F), wrmdsOn fe ta d fbase arr { args.call with deltat := some dt } = (d', .ok ()) ∧
      rdmdsMeta pf d' fbase { itrs := .one n, endian := args.endian, fill := fill } = .ok (b, [(n : Int)], m) ∧
      b.shape = (if 1 < prodL lead then [prodL lead] else []) ++ dims ∧ b.toList = arr.toList.map (Spec.rounded args.prec) ∧
      m.get "timestepnumber".toList = some (.list [.int n]) ∧
      m.get "timeinterval".toList = some (.lists [[.flt (rnd (ta.timeOf dt n))]]) := by
  obtain ⟨b, h3, h4, h5, h6, h7⟩ := rdmdsMeta_written pf fe rnd d fbase arr { args with times := some [ta.timeOf dt n] } fill lead dims
    hsplit h2 hlead hlab (by show ∀ m ∈ d.names, ¬ Spec.TileName (nameOf fbase args.itr) m; rw [hi]; exact hstale)
  have hfor : Spec.itrsFor args.itr = .one n := by rw [hi]; rfl
  have hret : Spec.returnedItrs args.itr = [(n : Int)] := by rw [hi]; rfl
  dsimp only at h7
  rw [hfor, hret] at h7
  refine ⟨_, b, _, ?_, h7, h5, h6, ?_, ?_⟩
  · rw [((C112_deltat fe ta val d fbase arr { args.call with deltat := some dt } dt hpos rfl).2.1 n
      (by show args.itr.map _ = _; rw [hi]; rfl) ht)]
    exact wrmdsOn_ok fe ta d fbase arr { args with times := some [ta.timeOf dt n] } _ h3
  · have := wrMeta_get rnd { args with times := some [ta.timeOf dt n] } (prodL lead) dims "timestepnumber".toList
    rw [this]
    show args.itr.map _ = _
    rw [hi]
    rfl
  · exact wrMeta_get rnd { args with times := some [ta.timeOf dt n] } (prodL lead) dims _

/-- C112, there and back: if a number `n` was given with `deltat` and the time that was read from the file is passed to `wrmds` with the
same `deltat`, the number computed is again `n` exactly if the rounded time is not below `n` steps; a time rounded down gives a
smaller number. -/
theorem C112_there_and_back [F64 F] [F32 F] (fe : F → Text) (rnd : F → F) (ta : TimeArith F)
    (val : F → ℝ) (d : MdsDir) (fbase : Text) (arr : NdArr F) (c : WrFull F) (dt : F) (n : Int) (hta : Spec.FloorLaw val ta (rnd (ta.timeOf dt n)) dt)
    (hpos : 0 < val dt) (hdt : c.deltat = some dt) (hi : c.itr = none) (ht : c.times = some [rnd (ta.timeOf dt n)])
    (hnear : val (rnd (ta.timeOf dt n)) < (n + 1) * val dt) :
    ∃ m, wrmdsOn fe ta d fbase arr c = wrmdsOn fe ta d fbase arr { c with itr := some m, deltat := none } ∧
      (n * val dt ≤ val (rnd (ta.timeOf dt n)) → m = n) ∧ (val (rnd (ta.timeOf dt n)) < n * val dt → m < n) := by
  let t := rnd (ta.timeOf dt n)
  have hs := (stepOf_floor (t := t) hpos ⌊val t / val dt⌋).2 rfl
  refine ⟨⌊val t / val dt⌋, (C112_deltat fe ta val d fbase arr c dt hpos hdt).1 [] t hi ht hta _ hs, fun h => ?_, fun h => ?_⟩
  · exact ((stepOf_floor hpos n).1 ⟨h, hnear⟩).symm
  · rw [Int.floor_lt, div_lt_iff₀ hpos]
    exact h

/-! ## Examples -/

namespace ExWrite

open ExTiles (pf)

/-- Whole numbers; division of whole numbers. -/
def ta : TimeArith Toy := ⟨fun t dt => if dt.bits = 0 then .error .valueError else .ok (t.bits.toNat / dt.bits.toNat : Nat),
  fun dt n => ⟨BitVec.ofNat 64 (dt.bits.toNat * n.toNat)⟩⟩

def val (x : Toy) : ℝ := x.bits.toNat

theorem floorLaw (t dt : Toy) : Spec.FloorLaw val ta t dt := by
  intro h
  have h0 : dt.bits ≠ 0 := by
    intro h'
    apply h.ne'
    show ((dt.bits.toNat : ℕ) : ℝ) = 0
    rw [h']
    simp
  show (if dt.bits = 0 then _ else _) = _
  rw [if_neg h0]
  congr 1
  show ((t.bits.toNat / dt.bits.toNat : ℕ) : ℤ) = ⌊((t.bits.toNat : ℕ) : ℝ) / ((dt.bits.toNat : ℕ) : ℝ)⌋
  have hp : 0 < dt.bits.toNat := by
    rcases Nat.eq_zero_or_pos dt.bits.toNat with h' | h'
    · exact absurd (BitVec.eq_of_toNat_eq h') h0
    · exact h'
  have hr : (0 : ℝ) < (dt.bits.toNat : ℕ) := by exact_mod_cast hp
  refine (Int.floor_eq_iff.2 ⟨?_, ?_⟩).symm
  · rw [le_div_iff₀ hr]
    exact_mod_cast Nat.div_mul_le_self t.bits.toNat dt.bits.toNat
  · rw [div_lt_iff₀ hr]
    have := Nat.lt_div_mul_add (a := t.bits.toNat) hp
    have : t.bits.toNat < (t.bits.toNat / dt.bits.toNat + 1) * dt.bits.toNat := by rw [Nat.add_mul, Nat.one_mul]; exact this
    exact_mod_cast this

/-- Times are written in tens. -/
def fe : Toy → Text := fun x => natText (x.bits.toNat / 10) ++ "0.".toList
def pf : Text → Py Toy := fun s => .ok ⟨BitVec.ofNat 64 (textVal (s.filter Char.isDigit))⟩
def rnd : Toy → Toy := fun x => ⟨BitVec.ofNat 64 (x.bits.toNat / 10 * 10)⟩

/-- A 2-d array with a time of 37 and steps of 5: iteration 7. -/
def args : WrArgs Toy := { prec := .f64, ndims := some 2, times := some [⟨20⟩, ⟨37⟩] }

theorem labels : Spec.Labels pf fe rnd args where
  simulation := fun s hs => by cases hs
  times := fun ts hts => by
    cases hts
    refine ⟨by simp, ?_, by decide +kernel⟩
    unfold Spec.TimeText
    decide +kernel
  fields := fun s hs => by cases hs

theorem noStale (n : Nat) (hn : n = 7 ∨ n = 4) : ∀ m ∈ ExWr.dir.names, ¬ Spec.TileName (nameOf "T".toList (some n)) m := by
  intro m hm ht
  rw [← tileName_iff] at ht
  have : ∀ n ∈ [7, 4], ∀ m ∈ ExWr.dir.names,
      ((nameOf "T".toList (some n)).isPrefixOf m && isTileSuffix (m.drop (nameOf "T".toList (some n)).length)) = false := by
    decide +kernel
  rw [this n (by simpa using hn) m hm] at ht
  cases ht

example := C112_number_from_times pf fe rnd ta val ExWr.dir "T".toList ExWr.arr args ⟨0⟩ ⟨5⟩ ⟨37⟩ [⟨20⟩] (floorLaw _ _) 7 [2, 1] [2, 3]
  ⟨rfl, rfl, fun _ h => by cases h⟩ (by decide) (by decide) labels rfl rfl (noStale 7 (.inl rfl)) (by simp [val])
  (by simp [Spec.StepOf, val]; norm_num)

example := C112_time_from_number pf fe rnd ta val ExWr.dir "T".toList ExWr.arr { args with itr := some 4, times := none } ⟨0⟩ ⟨3⟩ 4
  [2, 1] [2, 3] ⟨rfl, rfl, fun _ h => by cases h⟩ (by decide) (by decide) rfl rfl
  ⟨fun s hs => (by cases hs), fun ts hts => (by
    cases hts
    refine ⟨by simp, ?_, by decide +kernel⟩
    unfold Spec.TimeText
    decide +kernel), fun s hs => (by cases hs)⟩ (noStale 4 (.inr rfl)) (by simp [val])

/-- Step 4 with `deltat=3` is written as time 12, read as 10, and 10 is in step 3. -/
example : ∃ m : Int, m < 4 ∧
    wrmdsOn fe ta ExWr.dir "T".toList ExWr.arr { times := some [rnd (ta.timeOf ⟨3⟩ 4)], deltat := some ⟨3⟩ } =
    wrmdsOn fe ta ExWr.dir "T".toList ExWr.arr { times := some [rnd (ta.timeOf ⟨3⟩ 4)], itr := some m } := by
  have e : rnd (ta.timeOf ⟨3⟩ 4) = ⟨10⟩ := by decide +kernel
  obtain ⟨m, h1, -, h2⟩ := C112_there_and_back fe rnd ta val ExWr.dir "T".toList ExWr.arr
    { times := some [rnd (ta.timeOf ⟨3⟩ 4)], deltat := some ⟨3⟩ } ⟨3⟩ 4 (floorLaw _ _) (by simp [val]) rfl rfl rfl
    (by rw [e]; simp [val]; norm_num)
  exact ⟨m, h2 (by rw [e]; simp [val]; norm_num), h1⟩

/-- The doubles next to 0.1 and 0.3: `0.3//0.1` is 2.  Step 3 with `deltat=0.1` is written as `3.000000000000E-01`. -/
example : ⌊(5404319552844595 / 2 ^ 54 : ℚ) / (3602879701896397 / 2 ^ 55)⌋ = 2 := by norm_num

/-- A mismatch of the number of records: nothing is changed. -/
example : (wrmdsOn fe ta ExWr.dir "T".toList ExWr.arr { nrecords := some 3 }).1 = ExWr.dir :=
  (C111_failed_write fe ta ExWr.dir "T".toList ExWr.arr { nrecords := some 3 } .assertionError (by decide +kernel)).2 (by decide) (by decide)

/-- A good file, then a number (an array without dimensions) under the same name. -/
def before : MdsDir := (wrmdsOn fe ta ⟨[], fun _ => [], fun _ => []⟩ "T".toList ExWr.arr { prec := .f64, ndims := some 2 }).1

example : ((rdmds pf before "T".toList { fill := ⟨0⟩ }).map fun b => b.shape) = .ok [2, 2, 3] := by decide +kernel

example : rdmds pf (wrmdsOn fe ta before "T".toList ⟨[], fun _ => ⟨5⟩⟩ {}).1 "T".toList { fill := ⟨0⟩ } = .error .keyError :=
  (C111_meta_file_destroyed pf fe ta before "T".toList ⟨[], fun _ => ⟨5⟩⟩ {} none { fill := ⟨0⟩ } (.inl rfl) (fun _ h => by cases h)
    (fun _ h => by cases h) rfl rfl (fun _ h => by cases h) (by
      intro n hn ht
      rw [← tileName_iff] at ht
      have : ∀ n ∈ before.names, ((nameOf "T".toList none).isPrefixOf n && isTileSuffix (n.drop (nameOf "T".toList none).length)) = false := by
        decide +kernel
      rw [this n hn] at ht
      cases ht) rfl).2.1

end ExWrite

end SG
