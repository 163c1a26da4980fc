import Verif.Props.MdsMemmap
/-! # `returnmeta=True`, and writing with the meta data that were returned (C108, C109) -/

set_option linter.unusedSectionVars false
namespace SG
variable {F : Type}

/-! ## Specification -/

namespace Spec

/-- `ndims` in the meta file: the argument if there was one, else the number of dimensions of a record. -/
def ndimsEntry (args : WrArgs F) (dims : List Nat) : Nat := args.ndims.getD dims.length

/-- The dictionary that should be returned for files written with `args`, the array having `R` records with dimensions `dims`. -/
def returned (rnd : F → F) (args : WrArgs F) (R : Nat) (dims : List Nat) (k : Text) : Option (MetaVal F) :=
  if k = "simulation".toList then args.simulation.map fun s => .list [.str s]
  else if k = "ndims".toList then some (.list [.int (ndimsEntry args dims)])
  else if k = "dimlist".toList then some (.list (dims.reverse.map fun n : Nat => .int n))
  else if k = "dataprec".toList then some (.list [.str (match args.prec with | .f32 => "float32".toList | .f64 => "float64".toList)])
  else if k = "nrecords".toList then some (.list [.int R])
  else if k = "timestepnumber".toList then args.itr.map fun n : Nat => .list [.int n]
  else if k = "timeinterval".toList then args.times.map fun ts => .lists [ts.map fun t => .flt (rnd t)]
  else if k = "nflds".toList then args.fields.map fun fs => .list [.int fs.length]
  else if k = "fldlist".toList then args.fields.map fun fs => .list (fs.map .str)
  else none

/-- The iteration numbers that should be returned. -/
def returnedItrs : Option Nat → List Int
  | none => [-1]
  | some n => [(n : Int)]

end Spec

theorem ndimsOf_entry {args : WrArgs F} {shape lead dims : List Nat} (h : Spec.Split args.ndims args.nrecords shape lead dims) :
    ndimsOf args shape = .ok (Spec.ndimsEntry args dims) ∧ dims.length = min (Spec.ndimsEntry args dims) shape.length := by
  have h1 := h.kept
  have hp : dims.length ≤ shape.length := by rw [h.parts, List.length_append]; omega
  obtain ⟨n, h2, h3⟩ := ndimsOf_split h
  have hn : n = Spec.ndimsEntry args dims := by
    unfold Spec.ndimsEntry
    unfold ndimsOf at h2
    cases hnd : args.ndims with
    | some m => rw [hnd] at h2; injection h2 with h2; exact h2.symm
    | none =>
      rw [hnd] at h1 h2
      show n = dims.length
      cases hr : args.nrecords with
      | none =>
        rw [hr] at h1 h2
        injection h2 with h2
        have h1 : dims.length = min 3 shape.length := h1
        omega
      | some r =>
        rw [hr] at h2
        dsimp only at h2
        obtain ⟨⟨m, ds⟩, h4, h5⟩ := bind_ok_inv h2
        dsimp only at h5
        have hq := h.nrecords r hr
        rw [hr] at h1
        rw [h.parts, foldRecords_ok lead dims 1 (by rw [Nat.one_mul, hq]) (fun l m e hm => by
          rw [Nat.one_mul, ← hq]; exact h1 l m e hm)] at h4
        injection h4 with h4
        injection h4 with h4 h6
        rw [← h4, if_neg (by simp)] at h5
        injection h5 with h5
        rw [← h5, ← h6]
  rw [← hn]
  exact ⟨h2, h3⟩

/-- The entries that all files share, in the order in which `readmeta` has them. -/
def wrRest (a : MetaArgs F) : Dict F :=
  (match a.simulation with
    | none => []
    | some s => [("simulation".toList, [.str s])]) ++
  [("nDims".toList, [.int a.ndims]),
   ("dataprec".toList, [.str (match a.prec with | .f32 => "float32".toList | .f64 => "float64".toList)]),
   ("nrecords".toList, [.int a.nrec])] ++
  (match a.fields with
    | none => []
    | some fs => [("nFlds".toList, [.int fs.length]), ("fldList".toList, fs.map .str)]) ++
  [("dimList".toList, a.dims.map fun n : Nat => .int n)]

theorem readmeta_written {pf : Text → Py F} {fe : F → Text} {rnd : F → F} {a : MetaArgs F} (hw : Spec.MetaWritable pf fe rnd a)
    {m : TileMeta F} (h : readmeta pf (metaText fe a) = .ok m) (hg : m.gdims = a.dims.reverse.map fun n : Nat => (n : Int)) :
    m.rest = wrRest a := by
  unfold readmeta at h
  rw [C58_meta_round_trip pf fe rnd a hw, Py.ok_bind, metaEntries_get_dims] at h
  dsimp only at h
  obtain ⟨l, -, h⟩ := bind_ok_inv h
  injection h with h
  have hg' : every3 2 l.reverse = m.gdims := by rw [← h]
  rw [← h]
  show Dict.put _ _ _ = _
  rw [hg', hg]
  have e : ((a.dims.reverse.map fun n : Nat => (n : Int)).reverse.map (Val.int (F := F))) = a.dims.map fun n : Nat => .int n := by
    rw [← List.map_reverse, List.reverse_reverse, List.map_map]
    rfl
  rw [e]
  unfold wrRest Spec.metaEntries
  cases a.simulation <;> cases a.itr <;> cases a.times <;> cases a.fields <;> rfl

theorem lower_simulation : lowerText "simulation".toList = "simulation".toList := by decide +kernel
theorem lower_nDims : lowerText "nDims".toList = "ndims".toList := by decide +kernel
theorem lower_dataprec : lowerText "dataprec".toList = "dataprec".toList := by decide +kernel
theorem lower_nrecords : lowerText "nrecords".toList = "nrecords".toList := by decide +kernel
theorem lower_nFlds : lowerText "nFlds".toList = "nflds".toList := by decide +kernel
theorem lower_fldList : lowerText "fldList".toList = "fldlist".toList := by decide +kernel
theorem lower_dimList : lowerText "dimList".toList = "dimlist".toList := by decide +kernel
theorem lower_step : lowerText "timeStepNumber".toList = "timestepnumber".toList := by decide +kernel
theorem lower_ival : lowerText "timeInterval".toList = "timeinterval".toList := by decide +kernel

/-- The dictionary, entry by entry. -/
def wrMeta (rnd : F → F) (a : MetaArgs F) : MetaDict F :=
  (match a.simulation with
    | none => []
    | some s => [("simulation".toList, .list [.str s])]) ++
  [("ndims".toList, .list [.int a.ndims]),
   ("dataprec".toList, .list [.str (match a.prec with | .f32 => "float32".toList | .f64 => "float64".toList)]),
   ("nrecords".toList, .list [.int a.nrec])] ++
  (match a.fields with
    | none => []
    | some fs => [("nflds".toList, .list [.int fs.length]), ("fldlist".toList, .list (fs.map .str))]) ++
  [("dimlist".toList, .list (a.dims.map fun n : Nat => .int n))] ++
  (match a.itr with
    | none => []
    | some n => [("timestepnumber".toList, .list [.int n])]) ++
  (match a.times with
    | none => []
    | some ts => [("timeinterval".toList, .lists [ts.map fun t => .flt (rnd t)])])

theorem foldl_put (l : MetaDict F) : ∀ acc : MetaDict F, ((acc.map (·.1)) ++ l.map fun e => lowerText e.1).Nodup →
    l.foldl (fun m e => m.put (lowerText e.1) e.2) acc = acc ++ l.map fun e => (lowerText e.1, e.2) := by
  induction l with
  | nil => intro acc _; simp
  | cons e l ih =>
    intro acc h
    have hput : acc.put (lowerText e.1) e.2 = acc ++ [(lowerText e.1, e.2)] := by
      unfold MetaDict.put
      congr 1
      rw [List.filter_eq_self]
      intro x hx
      rw [List.nodup_append] at h
      simpa using h.2.2 x.1 (List.mem_map_of_mem hx) (lowerText e.1) (by simp)
    rw [List.foldl_cons, hput, ih]
    · simp
    · simpa using h

theorem metaOut_written (rnd : F → F) (a : MetaArgs F) :
    metaOut (wrRest a) [(a.itr.map fun n : Nat => [.int n], a.times.map fun ts => ts.map fun t => .flt (rnd t))] = wrMeta rnd a := by
  unfold metaOut
  dsimp only
  rw [foldl_put]
  · unfold wrRest wrMeta
    cases a.simulation <;> cases a.itr <;> cases a.times <;> cases a.fields <;> rfl
  · unfold wrRest
    cases a.simulation <;> cases a.itr <;> cases a.times <;> cases a.fields <;>
      simp only [List.map_nil, List.map_cons, List.nil_append, List.cons_append, List.append_nil, List.map_append, Option.map_none, Option.map_some,
        List.flatMap_cons, List.flatMap_nil, List.filterMap_cons, List.filterMap_nil, Option.getD_none, Option.getD_some, if_true, if_false, reduceCtorEq] <;>
      decide +kernel

theorem wrMeta_get (rnd : F → F) (args : WrArgs F) (R : Nat) (dims : List Nat) (k : Text) :
    (wrMeta rnd ⟨Spec.ndimsEntry args dims, dims.reverse, args.prec, R, args.itr, args.times, args.fields, args.simulation⟩).get k =
      Spec.returned rnd args R dims k := by
  unfold Spec.returned wrMeta
  dsimp only
  by_cases h1 : k = "simulation".toList
  · subst h1; rw [if_pos rfl]
    cases args.simulation <;> cases args.itr <;> cases args.times <;> cases args.fields <;> rfl
  rw [if_neg h1]
  by_cases h2 : k = "ndims".toList
  · subst h2; rw [if_pos rfl]; cases args.simulation <;> rfl
  rw [if_neg h2]
  by_cases h3 : k = "dimlist".toList
  · subst h3; rw [if_pos rfl]; cases args.simulation <;> cases args.fields <;> rfl
  rw [if_neg h3]
  by_cases h4 : k = "dataprec".toList
  · subst h4; rw [if_pos rfl]; cases args.simulation <;> rfl
  rw [if_neg h4]
  by_cases h5 : k = "nrecords".toList
  · subst h5; rw [if_pos rfl]; cases args.simulation <;> rfl
  rw [if_neg h5]
  by_cases h6 : k = "timestepnumber".toList
  · subst h6; rw [if_pos rfl]
    cases args.simulation <;> cases args.itr <;> cases args.times <;> cases args.fields <;> rfl
  rw [if_neg h6]
  by_cases h7 : k = "timeinterval".toList
  · subst h7; rw [if_pos rfl]
    cases args.simulation <;> cases args.itr <;> cases args.times <;> cases args.fields <;> rfl
  rw [if_neg h7]
  by_cases h8 : k = "nflds".toList
  · subst h8; rw [if_pos rfl]
    cases args.simulation <;> cases args.itr <;> cases args.times <;> cases args.fields <;> rfl
  rw [if_neg h8]
  by_cases h9 : k = "fldlist".toList
  · subst h9; rw [if_pos rfl]
    cases args.simulation <;> cases args.itr <;> cases args.times <;> cases args.fields <;> rfl
  rw [if_neg h9]
  unfold MetaDict.get
  rw [List.find?_eq_none.2, Option.map_none]
  intro e he hk
  have hk : e.1 = k := by simpa using hk
  subst hk
  simp only [List.mem_append, List.mem_cons, List.not_mem_nil, or_false] at he
  rcases he with ((((he | he | he | he) | he) | he) | he) | he
  · cases hs : args.simulation with
    | none => rw [hs] at he; simp at he
    | some v => rw [hs] at he; rw [List.mem_singleton.1 he] at h1; exact h1 rfl
  · rw [he] at h2; exact h2 rfl
  · rw [he] at h4; exact h4 rfl
  · rw [he] at h5; exact h5 rfl
  · cases hs : args.fields with
    | none => rw [hs] at he; simp at he
    | some v =>
      rw [hs] at he
      simp only [List.mem_cons, List.not_mem_nil, or_false] at he
      rcases he with he | he
      · rw [he] at h8; exact h8 rfl
      · rw [he] at h9; exact h9 rfl
  · rw [he] at h3; exact h3 rfl
  · cases hs : args.itr with
    | none => rw [hs] at he; simp at he
    | some v => rw [hs] at he; rw [List.mem_singleton.1 he] at h6; exact h6 rfl
  · cases hs : args.times with
    | none => rw [hs] at he; simp at he
    | some v => rw [hs] at he; rw [List.mem_singleton.1 he] at h7; exact h7 rfl

theorem metaEntries_times (rnd : F → F) (a : MetaArgs F) :
    Dict.get (Spec.metaEntries rnd a) "timeStepNumber".toList = a.itr.map (fun n : Nat => [.int n]) ∧
      Dict.get (Spec.metaEntries rnd a) "timeInterval".toList = a.times.map fun ts => ts.map fun t => .flt (rnd t) := by
  unfold Spec.metaEntries
  constructor <;> cases a.simulation <;> cases a.itr <;> cases a.times <;> cases a.fields <;> rfl

theorem rdmdsMeta_written [PyFloat F] [F64 F] [F32 F] [LawfulF64 F] (pf : Text → Py F) (fe : F → Text) (rnd : F → F) (d : MdsDir)
    (fbase : Text) (arr : NdArr F) (args : WrArgs F) (fill : F) (lead dims : List Nat)
    (hsplit : Spec.Split args.ndims args.nrecords arr.shape lead dims) (h2 : 2 ≤ dims.length) (hlead : ∀ n ∈ lead, 0 < n)
    (hlab : Spec.Labels pf fe rnd args) (hstale : ∀ n ∈ d.names, ¬ Spec.TileName (nameOf fbase args.itr) n) :
    ∃ b : NdArr F, wrmds fe fbase arr args = .ok (wrFiles fe fbase args (Spec.ndimsEntry args dims) lead dims
        (arr.toList.flatMap (itemBytes args.prec args.endian))) ∧
      rdmds pf (d.write (wrFiles fe fbase args (Spec.ndimsEntry args dims) lead dims (arr.toList.flatMap (itemBytes args.prec args.endian))))
        fbase { itrs := Spec.itrsFor args.itr, endian := args.endian, fill := fill } = .ok b ∧
      b.shape = (if 1 < prodL lead then [prodL lead] else []) ++ dims ∧ b.toList = arr.toList.map (Spec.rounded args.prec) ∧
      rdmdsMeta pf (d.write (wrFiles fe fbase args (Spec.ndimsEntry args dims) lead dims (arr.toList.flatMap (itemBytes args.prec args.endian))))
        fbase { itrs := Spec.itrsFor args.itr, endian := args.endian, fill := fill } =
      .ok (b, Spec.returnedItrs args.itr, wrMeta rnd ⟨Spec.ndimsEntry args dims, dims.reverse, args.prec, prodL lead, args.itr, args.times,
        args.fields, args.simulation⟩) := by
  have hdne : dims ≠ [] := by intro e; rw [e] at h2; simp at h2
  obtain ⟨hn, hlen⟩ := ndimsOf_entry hsplit
  have hw := wrmds_splitN fe fbase hsplit hdne hn hlen
  let nd := Spec.ndimsEntry args dims
  let full : List Byte := arr.toList.flatMap (itemBytes args.prec args.endian)
  have hal : arr.toList.length = prodL lead * prodL dims := by rw [NdArr.toList_length, ← prodL_append, hsplit.parts]
  have hfl : full.length = prodL lead * prodL dims * args.prec.size := by
    rw [← hal]
    exact length_flatMap_const arr.toList (itemBytes args.prec args.endian) args.prec.size (fun x _ => itemBytes_length args.prec args.endian x)
  obtain ⟨b, h3, h4, h5⟩ := rdmds_bytes (pf := pf) (fe := fe) (rnd := rnd) d fill nd h2 hlead hlab hstale full hfl
  obtain ⟨ds, box, rest, hp, hR, hgl, hG, hZ, hstart, hout, hsame, hat⟩ := wrFiles_tile (fbase := fbase) d nd lead h2 hlab
  have hat := hat full hfl
  let w := wrFiles fe fbase args nd lead dims full
  let ma : MetaArgs F := ⟨nd, dims.reverse, args.prec, prodL lead, args.itr, args.times, args.fields, args.simulation⟩
  have hmw : Spec.MetaWritable pf fe rnd ma := ⟨by simpa [ma] using hdne, hlab.simulation, hlab.times, hlab.fields⟩
  have htext : (d.write w).text (nameOf fbase args.itr ++ ".meta".toList) = metaText fe ma := if_pos rfl
  have hmf : (d.write w).metafiles (nameOf fbase args.itr) = [nameOf fbase args.itr ++ ".meta".toList] := metafiles_written (w := w) hstale
  have hopen : (d.write w).openText (nameOf fbase args.itr ++ ".meta".toList) = .ok (metaText fe ma) := by
    rw [← htext]; exact if_pos hat.metaIn
  have hmeta := hat.metaData
  have hmeta : readmeta pf (metaText fe ma) = .ok (tileMeta ds box rest) := by rw [← htext]; exact hmeta
  have hrest : rest = wrRest ma := readmeta_written hmw hmeta (by
    show ints ds.G = (dims.reverse.reverse).map _
    rw [hG, List.reverse_reverse]; rfl)
  have hits : itrsOf (d.write w) fbase (Spec.itrsFor args.itr) = [args.itr] := by cases args.itr <;> rfl
  refine ⟨b, hw, h3, h4, ?_, ?_⟩
  · rw [h5, itemsOf_bytes]
  · have href : metaRef pf (d.write w) fbase [args.itr] = .ok rest := by
      have e : metaRef pf (d.write w) fbase [args.itr] = match (d.write w).metafiles (nameOf fbase args.itr) with
          | [] => .error .ioError
          | n :: _ => do
            let text ← (d.write w).openText n
            let m ← readmeta pf text
            return m.rest := by cases args.itr <;> rfl
      rw [e, hmf]
      dsimp only
      rw [hopen, Py.ok_bind, hmeta]
      rfl
    have htimes : itrTimes pf (d.write w) fbase args.itr =
        .ok (args.itr.map (fun n : Nat => [.int n]), args.times.map fun ts => ts.map fun t => .flt (rnd t)) := by
      have e : itrTimes pf (d.write w) fbase args.itr = match ((d.write w).metafiles (nameOf fbase args.itr)).getLast? with
          | none => .error .ioError
          | some n => do
            let text ← (d.write w).openText n
            let es ← parsemeta pf text
            return (es.get "timeStepNumber".toList, es.get "timeInterval".toList) := by cases args.itr <;> rfl
      rw [e, hmf]
      show ((d.write w).openText (nameOf fbase args.itr ++ ".meta".toList) >>= _) = _
      rw [hopen, Py.ok_bind, C58_meta_round_trip pf fe rnd ma hmw, Py.ok_bind, (metaEntries_times rnd ma).1, (metaEntries_times rnd ma).2]
      rfl
    have hmap : [args.itr].mapM (itrTimes pf (d.write w) fbase) =
        .ok [(args.itr.map (fun n : Nat => [.int n]), args.times.map fun ts => ts.map fun t => .flt (rnd t))] := by
      rw [List.mapM_cons, htimes, Py.ok_bind, List.mapM_nil]
      rfl
    have h3 : rdmds pf (d.write w) fbase { itrs := Spec.itrsFor args.itr, endian := args.endian, fill := fill } = .ok b := h3
    show rdmdsMeta pf (d.write w) fbase _ = _
    unfold rdmdsMeta
    dsimp only
    rw [hits, h3, Py.ok_bind, href, Py.ok_bind, hmap, Py.ok_bind, hrest, metaOut_written rnd ma]
    have hio : itrsOut [args.itr] = Spec.returnedItrs args.itr := by cases args.itr <;> rfl
    rw [hio]
    rfl

/-- C108: the meta data returned with an array that `wrmds` wrote are what it was written with, under keys in lower case. -/
theorem C108_returned_meta [PyFloat F] [F64 F] [F32 F] [LawfulF64 F] (pf : Text → Py F) (fe : F → Text) (rnd : F → F) (d : MdsDir)
    (fbase : Text) (arr : NdArr F) (args : WrArgs F) (fill : F) (lead dims : List Nat)
    (hsplit : Spec.Split args.ndims args.nrecords arr.shape lead dims) (h2 : 2 ≤ dims.length) (hlead : ∀ n ∈ lead, 0 < n)
    (hlab : Spec.Labels pf fe rnd args) (hstale : ∀ n ∈ d.names, ¬ Spec.TileName (nameOf fbase args.itr) n) :
    ∃ (w : Written) (b : NdArr F) (m : MetaDict F), wrmds fe fbase arr args = .ok w ∧
      rdmds pf (d.write w) fbase { itrs := Spec.itrsFor args.itr, endian := args.endian, fill := fill } = .ok b ∧
      rdmdsMeta pf (d.write w) fbase { itrs := Spec.itrsFor args.itr, endian := args.endian, fill := fill } =
        .ok (b, Spec.returnedItrs args.itr, m) ∧
      ∀ k, m.get k = Spec.returned rnd args (prodL lead) dims k := by
  obtain ⟨b, h3, h4, -, -, h5⟩ := rdmdsMeta_written pf fe rnd d fbase arr args fill lead dims hsplit h2 hlead hlab hstale
  exact ⟨_, b, _, h3, h4, h5, wrMeta_get rnd args (prodL lead) dims⟩

/-! ## Writing with the meta data -/

theorem asInts_nats (l : List Nat) : asInts (l.map fun n : Nat => (.int n : Val F)) = .ok (l.map fun n : Nat => (n : Int)) := by
  unfold asInts
  induction l with
  | nil => rfl
  | cons n l ih => rw [List.map_cons, List.mapM_cons, Py.ok_bind, ih]; rfl

theorem take_dims {shape lead dims : List Nat} {n : Nat} (hs : shape = lead ++ dims) (hlen : dims.length = min n shape.length) :
    shape.reverse.take n = dims.reverse := by
  have hl : shape.length = lead.length + dims.length := by rw [hs, List.length_append]
  rw [hs, List.reverse_append]
  by_cases hle : n ≤ shape.length
  · have : n = dims.reverse.length := by rw [List.length_reverse]; omega
    rw [this, List.take_left]
  · have : lead = [] := by apply List.eq_nil_of_length_eq_zero; omega
    rw [this, List.reverse_nil, List.append_nil, List.take_of_length_le (by rw [List.length_reverse]; omega)]

theorem kw_plain (rnd : F → F) (n R : Nat) (dims : List Nat) (p : Prec) (sim : Option Text) :
    (wrMeta rnd ⟨n, dims, p, R, none, none, none, sim⟩).foldlM kwStep ({}, none) =
      .ok ({ prec := p, ndims := some n, nrecords := some R, simulation := sim }, some (dims.map fun k : Nat => .int k)) := by
  unfold wrMeta
  cases sim <;> cases p <;> rfl

theorem kw_plain_keys (rnd : F → F) (n R : Nat) (dims : List Nat) (p : Prec) (sim : Option Text) :
    (wrMeta rnd ⟨n, dims, p, R, none, none, none, sim⟩).any (fun e => decide (e.1 ∉ wrKeys)) = false := by
  unfold wrMeta
  cases sim <;> simp [wrKeys]

theorem kw_other_keys (rnd : F → F) (a : MetaArgs F) (h : a.itr ≠ none ∨ a.times ≠ none ∨ a.fields ≠ none) :
    (wrMeta rnd a).any (fun e => decide (e.1 ∉ wrKeys)) = true := by
  have key : ∀ e ∈ wrMeta rnd a, e.1 ∉ wrKeys → (wrMeta rnd a).any (fun e => decide (e.1 ∉ wrKeys)) = true := by
    intro e he hk
    rw [List.any_eq_true]
    exact ⟨e, he, by simpa using hk⟩
  rcases h with h | h | h
  · cases hi : a.itr with
    | none => exact absurd hi h
    | some n => exact key ("timestepnumber".toList, .list [.int n]) (by unfold wrMeta; rw [hi]; simp) (by dsimp only; decide +kernel)
  · cases hi : a.times with
    | none => exact absurd hi h
    | some ts => exact key ("timeinterval".toList, .lists [ts.map fun t => .flt (rnd t)]) (by unfold wrMeta; rw [hi]; simp) (by dsimp only; decide +kernel)
  · cases hi : a.fields with
    | none => exact absurd hi h
    | some fs => exact key ("nflds".toList, .list [.int fs.length]) (by unfold wrMeta; rw [hi]; simp) (by dsimp only; decide +kernel)

/-- C109: an array can be written with the meta data that were returned with it if its files have no iteration number, times or field
names; the new meta file is then the old one, and the data are the same if they were big-endian.  If they have any of these, `wrmds` raises
`TypeError`. -/
theorem C109_meta_as_arguments [PyFloat F] [F64 F] [F32 F] [LawfulF64 F] (pf : Text → Py F) (fe : F → Text) (rnd : F → F) (d : MdsDir)
    (fbase : Text) (arr : NdArr F) (args : WrArgs F) (fill : F) (lead dims : List Nat)
    (hsplit : Spec.Split args.ndims args.nrecords arr.shape lead dims) (h2 : 2 ≤ dims.length) (hlead : ∀ n ∈ lead, 0 < n)
    (hlab : Spec.Labels pf fe rnd args) (hstale : ∀ n ∈ d.names, ¬ Spec.TileName (nameOf fbase args.itr) n) :
    ∃ (w : Written) (b : NdArr F) (m : MetaDict F), wrmds fe fbase arr args = .ok w ∧
      rdmdsMeta pf (d.write w) fbase { itrs := Spec.itrsFor args.itr, endian := args.endian, fill := fill } =
        .ok (b, Spec.returnedItrs args.itr, m) ∧
      (args.itr = none → args.times = none → args.fields = none → ∀ new, ∃ w', wrmdsKw fe new b m = .ok w' ∧ w'.base = new ∧
        w'.text = w.text ∧ (args.endian = .big →
          (args.prec = .f32 → ∀ x : F, F32.toBits32 (F32.ofBits32 (F32.toBits32 x) : F) = F32.toBits32 x) → w'.data = w.data)) ∧
      (args.itr ≠ none ∨ args.times ≠ none ∨ args.fields ≠ none → ∀ new c, wrmdsKw fe new c m = .error .typeError) := by
  obtain ⟨b, h3, h4, hshape, hlist, h5⟩ := rdmdsMeta_written pf fe rnd d fbase arr args fill lead dims hsplit h2 hlead hlab hstale
  have hdne : dims ≠ [] := by intro e; rw [e] at h2; simp at h2
  refine ⟨_, b, _, h3, h5, ?_, ?_⟩
  · intro hi ht hf new
    rw [hi, ht, hf]
    obtain ⟨hn, hlen⟩ := ndimsOf_entry hsplit
    have hR := prodL_pos hlead
    let nd := Spec.ndimsEntry args dims
    let args' : WrArgs F := { prec := args.prec, ndims := some nd, nrecords := some (prodL lead), simulation := args.simulation }
    have hl : arr.shape.length = lead.length + dims.length := by rw [hsplit.parts, List.length_append]
    have hlen' : dims.length = min nd b.shape.length := by
      rw [hshape, List.length_append]
      by_cases hle : lead = []
      · subst hle
        have e : (if 1 < prodL [] then [prodL []] else []) = ([] : List Nat) := rfl
        rw [e]
        simp only [List.length_nil, Nat.zero_add] at hl ⊢
        show _ = min (Spec.ndimsEntry args dims) _
        omega
      · have := List.length_pos_iff.2 hle
        show _ = min (Spec.ndimsEntry args dims) _
        omega
    have hsplit' : Spec.Split args'.ndims args'.nrecords b.shape (if 1 < prodL lead then [prodL lead] else []) dims := by
      refine ⟨hshape, hlen', fun r hr => ?_⟩
      injection hr with hr
      rw [← hr]
      split
      · exact Nat.mul_one _
      · show 1 = _; omega
    have hw := wrmds_splitN fe new (arr := b) (args := args') hsplit' hdne (n := nd) rfl hlen'
    have hprod : prodL (if 1 < prodL lead then [prodL lead] else []) = prodL lead := hsplit'.nrecords _ rfl
    have hkw : wrmdsKw fe new b (wrMeta rnd ⟨nd, dims.reverse, args.prec, prodL lead, none, none, none, args.simulation⟩) =
        .ok ⟨new, metaText fe ⟨nd, dims.reverse, args.prec, prodL lead, none, none, none, args.simulation⟩,
          b.toList.flatMap (itemBytes args.prec .big)⟩ := by
      unfold wrmdsKw
      rw [kw_plain_keys, if_neg (by simp)]
      dsimp only
      rw [kw_plain, Py.ok_bind]
      dsimp only
      have hw' : wrmds fe new b { prec := args.prec, ndims := some nd, nrecords := some (prodL lead), simulation := args.simulation } = _ := hw
      rw [hw', Py.ok_bind]
      have hnd : ndimsOf args' b.shape = .ok nd := rfl
      show (ndimsOf args' b.shape >>= _) = _
      rw [hnd, Py.ok_bind, asInts_nats]
      dsimp only
      rw [take_dims hshape hlen', if_pos rfl, hprod]
      rfl
    refine ⟨_, hkw, rfl, ?_, fun hend hr => ?_⟩
    · unfold wrFiles
      rw [hi, ht, hf]
    · show b.toList.flatMap (itemBytes args.prec .big) = arr.toList.flatMap (itemBytes args.prec args.endian)
      rw [hlist, hend, List.flatMap_map]
      congr 1
      funext x
      unfold itemBytes Spec.rounded
      cases hp : args.prec with
      | f32 => dsimp only; rw [hr hp]
      | f64 => rfl
  · intro h new c
    unfold wrmdsKw
    rw [kw_other_keys rnd _ h, if_pos rfl]
    rfl

/-! ## Examples -/

namespace ExRet

open ExTiles (pf)
open ExWr (arr fe dir)

example := C108_returned_meta pf fe id dir "T".toList arr ExWr.args ⟨0⟩ [2, 1] [2, 3] ExWr.split (by decide) (by decide) ExWr.labels ExWr.noStale

/-- Files with an iteration number and field names: the meta data that are returned cannot be passed on. -/
example := C109_meta_as_arguments pf fe id dir "T".toList arr ExWr.args ⟨0⟩ [2, 1] [2, 3] ExWr.split (by decide) (by decide) ExWr.labels
  ExWr.noStale

/-- Files without: they can. -/
def args : WrArgs Toy := { prec := .f32, ndims := some 2, simulation := some "run 1".toList }

theorem labels : Spec.Labels pf fe id args where
  simulation := fun s hs => by
    cases hs
    exact ⟨by decide +kernel, by decide +kernel⟩
  times := fun s hs => by cases hs
  fields := fun fs hfs => by cases hfs

theorem noStale : ∀ n ∈ dir.names, ¬ Spec.TileName (nameOf "U".toList args.itr) n := by
  intro n hn ht
  rw [← tileName_iff] at ht
  have : ∀ n ∈ dir.names, ((nameOf "U".toList args.itr).isPrefixOf n && isTileSuffix (n.drop (nameOf "U".toList args.itr).length)) = false := by
    decide +kernel
  rw [this n hn] at ht
  cases ht

example : ∃ (w : Written) (b : NdArr Toy) (m : MetaDict Toy), wrmds fe "U".toList arr args = .ok w ∧
    rdmdsMeta pf (dir.write w) "U".toList { fill := ⟨0⟩ } = .ok (b, [-1], m) ∧ wrmdsKw fe "V".toList b m = .ok ⟨"V".toList, w.text, w.data⟩ := by
  obtain ⟨w, b, m, h1, h2, h3, -⟩ := C109_meta_as_arguments pf fe id dir "U".toList arr args ⟨0⟩ [2, 1] [2, 3] ⟨rfl, rfl, fun _ h => by cases h⟩
    (by decide) (by decide) labels noStale
  obtain ⟨w', h4, h5, h6, h7⟩ := h3 rfl rfl rfl "V".toList
  refine ⟨w, b, m, h1, h2, ?_⟩
  rw [h4, ← h5, ← h6, ← h7 rfl]
  intro _ x
  show ((x.bits.setWidth 32).setWidth 64).setWidth 32 = x.bits.setWidth 32
  simp

/-- The keys and the numbers of one file. -/
example : ((do
    let w ← wrmds fe "T".toList arr ExWr.args
    let r ← rdmdsMeta pf (dir.write w) "T".toList { itrs := .one 12, fill := ⟨0⟩ }
    return (r.2.1, r.2.2.map fun e => String.ofList e.1)) : Py (List Int × List String)) =
    .ok ([12], ["ndims", "dataprec", "nrecords", "nflds", "fldlist", "dimlist", "timestepnumber"]) := by decide +kernel

end ExRet

end SG
