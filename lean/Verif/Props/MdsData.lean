import Verif.Props.MdsTiles
/-! # `wrmds` followed by `rdmds` (C59, C70) -/

set_option linter.unusedSectionVars false
namespace SG
variable {F : Type}

/-! ## Specification -/

namespace Spec

/-- The leading dimensions `lead` of an array become the record dimension, the others, `dims`, are the dimensions of a record:
`ndims` many if given, else as many as are left when the first dimensions make up `nrecords`, else up to three. -/
structure Split (ndims nrecords : Option Nat) (shape lead dims : List Nat) : Prop where
  parts : shape = lead ++ dims
  kept : match ndims, nrecords with
    | some n, _ => dims.length = min n shape.length
    | none, none => dims.length = min 3 shape.length
    | none, some _ => ∀ l m, lead = l ++ m → m ≠ [] → prodL l < prodL lead
  nrecords : ∀ r, nrecords = some r → prodL lead = r

/-- Names and times that can be written to a meta file and read again (see C58). -/
structure Labels (pf : Text → Py F) (fe : F → Text) (rnd : F → F) (args : WrArgs F) : Prop where
  simulation : ∀ s ∈ args.simulation, Name s
  times : ∀ ts ∈ args.times, ts ≠ [] ∧ (∀ t ∈ ts, TimeText pf fe rnd t) ∧ ∀ t ∈ ts.tail, (fe t).length < 20
  fields : ∀ fs ∈ args.fields, fs ≠ [] ∧ ∀ f ∈ fs, Name f ∧ '}' ∉ f

/-- The base name with which `rdmds` finds the files again. -/
def itrsFor : Option Nat → Itrs
  | none => .noItr
  | some n => .one n

end Spec

/-! ## What `wrmds` writes -/

theorem foldRecords_ok {r : Nat} : ∀ (lead dims : List Nat) (n : Nat), n * prodL lead = r →
    (∀ l m, lead = l ++ m → m ≠ [] → n * prodL l < r) → foldRecords r n (lead ++ dims) = .ok (r, dims)
  | [], dims, n, h, _ => by
    have h : n = r := by rw [← h]; show n = n * 1; rw [Nat.mul_one]
    rw [foldRecords.eq_def]
    dsimp only
    rw [if_pos (by omega), h]; rfl
  | m :: lead, dims, n, h, hlt => by
    have h0 : n < r := by
      have := hlt [] (m :: lead) rfl (List.cons_ne_nil _ _)
      have e : n * prodL [] = n := Nat.mul_one n
      omega
    rw [foldRecords.eq_def]
    dsimp only
    rw [if_neg (by omega)]
    show foldRecords r (n * m) (lead ++ dims) = _
    apply foldRecords_ok lead dims (n * m)
    · rw [← h, Nat.mul_assoc]; rfl
    · intro l k e hk
      have := hlt (m :: l) k (by rw [e]; rfl) hk
      rw [Nat.mul_assoc]; exact this

theorem ndimsOf_split {args : WrArgs F} {shape lead dims : List Nat} (h : Spec.Split args.ndims args.nrecords shape lead dims) :
    ∃ n, ndimsOf args shape = .ok n ∧ dims.length = min n shape.length := by
  have h1 := h.kept
  unfold ndimsOf
  cases hn : args.ndims with
  | some n =>
    rw [hn] at h1
    exact ⟨n, rfl, h1⟩
  | none =>
    rw [hn] at h1
    cases hr : args.nrecords with
    | none =>
      rw [hr] at h1
      refine ⟨min 3 shape.length, rfl, ?_⟩
      rw [h1]; omega
    | some r =>
      rw [hr] at h1
      have hp := h.nrecords r hr
      refine ⟨dims.length, ?_, ?_⟩
      · dsimp only
        rw [h.parts, foldRecords_ok lead dims 1 (by rw [Nat.one_mul, hp]) (fun l m e hm => by
          rw [Nat.one_mul, ← hp]; exact h1 l m e hm)]
        show (if r ≠ r then _ else _) = _
        rw [if_neg (by simp)]
        rfl
      · rw [h.parts, List.length_append]; omega

def wrBase (fbase : Text) (args : WrArgs F) : Text := nameOf fbase args.itr

theorem wrmds_splitN [F64 F] [F32 F] (fe : F → Text) (fbase : Text) {arr : NdArr F} {args : WrArgs F} {lead dims : List Nat}
    (h : Spec.Split args.ndims args.nrecords arr.shape lead dims) (hne : dims ≠ []) {n : Nat} (hn : ndimsOf args arr.shape = .ok n)
    (hlen : dims.length = min n arr.shape.length) :
    wrmds fe fbase arr args = .ok ⟨nameOf fbase args.itr,
      metaText fe ⟨n, dims.reverse, args.prec, prodL lead, args.itr, args.times, args.fields, args.simulation⟩,
      arr.toList.flatMap (itemBytes args.prec args.endian)⟩ := by
  have hs := h.parts
  have hpos : 0 < dims.length := List.length_pos_iff.2 hne
  have hn0 : n ≠ 0 := by intro e; rw [e] at hlen; omega
  have hl : arr.shape.length = lead.length + dims.length := by rw [hs, List.length_append]
  have hd : arr.shape.reverse.take n = dims.reverse := by
    rw [hs, List.reverse_append]
    by_cases hle : n ≤ arr.shape.length
    · have : n = dims.reverse.length := by rw [List.length_reverse]; omega
      rw [this, List.take_left]
    · have : lead = [] := by
        apply List.eq_nil_of_length_eq_zero; omega
      rw [this, List.reverse_nil, List.append_nil, List.take_of_length_le (by rw [List.length_reverse]; omega)]
  have hr : prodL (if n = 0 then [] else arr.shape.take (arr.shape.length - n)) = prodL lead := by
    rw [if_neg hn0]
    have : arr.shape.length - n = lead.length := by omega
    rw [this, hs, List.take_left]
  unfold wrmds
  rw [hn, Py.ok_bind]
  dsimp only
  rw [hr, hd]
  have hrev : dims.reverse ≠ [] := by simpa using hne
  cases hnr : args.nrecords with
  | none =>
    dsimp only
    rw [if_neg hrev]
    cases args.itr <;> rfl
  | some r =>
    dsimp only
    have := h.nrecords r hnr
    rw [if_neg (by rw [this]; simp), if_neg hrev]
    cases args.itr <;> rfl

theorem wrmds_split [F64 F] [F32 F] (fe : F → Text) (fbase : Text) {arr : NdArr F} {args : WrArgs F} {lead dims : List Nat}
    (h : Spec.Split args.ndims args.nrecords arr.shape lead dims) (hne : dims ≠ []) : ∃ n : Nat,
    wrmds fe fbase arr args = .ok ⟨nameOf fbase args.itr,
      metaText fe ⟨n, dims.reverse, args.prec, prodL lead, args.itr, args.times, args.fields, args.simulation⟩,
      arr.toList.flatMap (itemBytes args.prec args.endian)⟩ := by
  obtain ⟨n, hn, hlen⟩ := ndimsOf_split h
  exact ⟨n, wrmds_splitN fe fbase h hne hn hlen⟩

/-! ## The directory afterwards -/

theorem write_mem {d : MdsDir} {w : Written} {n : Text} :
    n ∈ (d.write w).names ↔ n ∈ d.names ∨ n = w.base ++ ".meta".toList ∨ n = w.base ++ ".data".toList := by
  unfold MdsDir.write
  dsimp only
  rw [List.mem_append, List.mem_filter]
  simp only [List.mem_cons, List.not_mem_nil, or_false, decide_eq_true_eq]
  constructor
  · rintro (h | ⟨h, _⟩)
    · exact .inl h
    · exact .inr h
  · rintro (h | h)
    · exact .inl h
    · by_cases hm : n ∈ d.names
      · exact .inl hm
      · exact .inr ⟨h, by simpa using hm⟩

theorem tileName_length {fname n : Text} (h : Spec.TileName fname n) : n.length = fname.length + 13 := by
  obtain ⟨a, b, c, d, e, f, _, rfl⟩ := h
  simp

theorem found_written {d : MdsDir} {w : Written} (h : ∀ n ∈ d.names, ¬ Spec.TileName w.base n) (n : Text) :
    Spec.Found (d.write w) w.base n ↔ n = w.base ++ ".meta".toList := by
  have hno : ∀ m ∈ (d.write w).names, ¬ Spec.TileName w.base m := by
    intro m hm ht
    rcases write_mem.1 hm with hm | rfl | rfl
    · exact h m hm ht
    · have := tileName_length ht
      rw [List.length_append] at this
      have e : ".meta".toList.length = 5 := rfl
      omega
    · have := tileName_length ht
      rw [List.length_append] at this
      have e : ".data".toList.length = 5 := rfl
      omega
  constructor
  · rintro ⟨hn, ht | ⟨_, he⟩⟩
    · exact absurd ht (hno n hn)
    · exact he
  · rintro rfl
    exact ⟨write_mem.2 (.inr (.inl rfl)), .inr ⟨hno, rfl⟩⟩

theorem dataOf_meta (b : Text) : (b ++ ".meta".toList).take ((b ++ ".meta".toList).length - 4) ++ "data".toList = b ++ ".data".toList := by
  have e : ".meta".toList = '.' :: ['m', 'e', 't', 'a'] := rfl
  have e2 : b ++ ".meta".toList = (b ++ ['.']) ++ ['m', 'e', 't', 'a'] := by rw [e]; simp
  have : (b ++ ".meta".toList).length - 4 = (b ++ ['.']).length := by rw [e2]; simp
  rw [this, e2, List.take_left]
  simp

/-! ## Meta entries -/

theorem dimEntries_whole : ∀ (G : List Nat), Spec.dimEntries (F := F) G (List.replicate G.length 0) G =
    G.reverse.flatMap fun d => [.int d, .int 1, .int d]
  | [] => rfl
  | g :: G => by
    show Spec.dimEntries G (List.replicate G.length 0) G ++ _ = _
    rw [dimEntries_whole G, List.reverse_cons, List.flatMap_append]
    congr 1
    simp

def metaCommon (es : Dict F) (k : Text) : Option (List (Val F)) := if k ∈ Spec.ownKeys then none else es.get k

theorem metaEntries_get_dims (rnd : F → F) (a : MetaArgs F) : Dict.get (Spec.metaEntries rnd a) "dimList".toList =
    some (a.dims.flatMap fun d => [.int d, .int 1, .int d]) := by
  unfold Dict.get Spec.metaEntries
  cases a.simulation <;> simp

theorem metaEntries_get_prec (rnd : F → F) (a : MetaArgs F) : Dict.get (Spec.metaEntries rnd a) "dataprec".toList =
    some [.str (match a.prec with | .f32 => "float32".toList | .f64 => "float64".toList)] := by
  unfold Dict.get Spec.metaEntries
  cases a.simulation <;> cases a.prec <;> simp

theorem metaEntries_get_nrec (rnd : F → F) (a : MetaArgs F) : Dict.get (Spec.metaEntries rnd a) "nrecords".toList =
    some [.int a.nrec] := by
  unfold Dict.get Spec.metaEntries
  cases a.simulation <;> simp

theorem metaEntries_mem {rnd : F → F} {a : MetaArgs F} {k : Text} {v : List (Val F)} (h : (k, v) ∈ Spec.metaEntries rnd a) :
    k ≠ "map2glob".toList ∧ ((∃ x, Val.flt x ∈ v) → k = "timeInterval".toList) := by
  have k1 : "simulation".toList ≠ "map2glob".toList := by decide +kernel
  have k2 : "nDims".toList ≠ "map2glob".toList := by decide +kernel
  have k3 : "dimList".toList ≠ "map2glob".toList := by decide +kernel
  have k4 : "dataprec".toList ≠ "map2glob".toList := by decide +kernel
  have k5 : "nrecords".toList ≠ "map2glob".toList := by decide +kernel
  have k6 : "timeStepNumber".toList ≠ "map2glob".toList := by decide +kernel
  have k7 : "timeInterval".toList ≠ "map2glob".toList := by decide +kernel
  have k8 : "nFlds".toList ≠ "map2glob".toList := by decide +kernel
  have k9 : "fldList".toList ≠ "map2glob".toList := by decide +kernel
  unfold Spec.metaEntries at h
  simp only [List.mem_append] at h
  rcases h with (((h | h) | h) | h) | h
  · cases hs : a.simulation with
    | none => rw [hs] at h; cases h
    | some s =>
      rw [hs] at h
      cases List.mem_singleton.1 h
      exact ⟨k1, fun ⟨x, hx⟩ => by simp at hx⟩
  · simp only [List.mem_cons, Prod.mk.injEq, List.not_mem_nil, or_false] at h
    rcases h with ⟨rfl, rfl⟩ | ⟨rfl, rfl⟩ | ⟨rfl, rfl⟩ | ⟨rfl, rfl⟩
    · exact ⟨k2, fun ⟨x, hx⟩ => by simp at hx⟩
    · exact ⟨k3, fun ⟨x, hx⟩ => by simp at hx⟩
    · exact ⟨k4, fun ⟨x, hx⟩ => by simp at hx⟩
    · exact ⟨k5, fun ⟨x, hx⟩ => by simp at hx⟩
  · cases hs : a.itr with
    | none => rw [hs] at h; cases h
    | some s =>
      rw [hs] at h
      cases List.mem_singleton.1 h
      exact ⟨k6, fun ⟨x, hx⟩ => by simp at hx⟩
  · cases hs : a.times with
    | none => rw [hs] at h; cases h
    | some s =>
      rw [hs] at h
      cases List.mem_singleton.1 h
      exact ⟨k7, fun _ => rfl⟩
  · cases hs : a.fields with
    | none => rw [hs] at h; cases h
    | some s =>
      rw [hs] at h
      simp only [List.mem_cons, Prod.mk.injEq, List.not_mem_nil, or_false] at h
      rcases h with ⟨rfl, rfl⟩ | ⟨rfl, rfl⟩
      · exact ⟨k8, fun ⟨x, hx⟩ => by simp at hx⟩
      · exact ⟨k9, fun ⟨x, hx⟩ => by simp at hx⟩

theorem metaEntries_no_m2g (rnd : F → F) (a : MetaArgs F) : Dict.get (Spec.metaEntries rnd a) "map2glob".toList = none := by
  cases h : Dict.get (Spec.metaEntries rnd a) "map2glob".toList with
  | none => rfl
  | some v => exact absurd rfl (metaEntries_mem (Dict.mem_of_get h)).1

theorem metaCommon_ok [PyFloat F] (rnd : F → F) (a : MetaArgs F) (ds : DataSet) (hp : ds.prec = a.prec) (hr : ds.R = a.nrec) :
    Spec.Common ds (metaCommon (Spec.metaEntries rnd a)) where
  prec := by
    unfold metaCommon
    rw [if_neg (by decide +kernel), metaEntries_get_prec, hp]
    cases a.prec <;> rfl
  nrec := by
    unfold metaCommon
    rw [if_neg (by decide +kernel), metaEntries_get_nrec, hr]
  real := by
    intro k vs x h hx
    unfold metaCommon at h
    split at h
    · cases h
    · rename_i hk
      have := (metaEntries_mem (Dict.mem_of_get h)).2 ⟨x, hx⟩
      exact absurd (by rw [this]; decide +kernel) hk

/-! ## C59 -/

theorem replicate_start : ∀ (G : List Nat), Fits G (List.replicate G.length 0) G
  | [] => trivial
  | g :: G => ⟨by omega, replicate_start G⟩

theorem within_zero : ∀ {G q : List Nat}, InShape G q → Spec.within (List.replicate G.length 0) q = q
  | [], [], _ => rfl
  | g :: G, i :: q, h => by
    show (i - 0) :: Spec.within (List.replicate G.length 0) q = _
    rw [within_zero h.2]; rfl

theorem covers_whole : ∀ {G q : List Nat}, InShape G q → Spec.Covers (List.replicate G.length 0) G q
  | [], [], _ => trivial
  | g :: G, i :: q, h => ⟨⟨Nat.zero_le _, by have := h.1; omega⟩, covers_whole h.2⟩

/-- C59: what `wrmds` writes, `rdmds` reads. -/
theorem C59_data_round_trip [PyFloat F] [F64 F] [F32 F] [LawfulF64 F] (pf : Text → Py F) (fe : F → Text) (rnd : F → F) (d : MdsDir)
    (fbase : Text) (arr : NdArr F) (args : WrArgs F) (fill : F) (lead dims : List Nat)
    (hsplit : Spec.Split args.ndims args.nrecords arr.shape lead dims) (h2 : 2 ≤ dims.length) (hlead : ∀ n ∈ lead, 0 < n)
    (hlab : Spec.Labels pf fe rnd args) (hstale : ∀ n ∈ d.names, ¬ Spec.TileName (nameOf fbase args.itr) n) :
    ∃ (w : Written) (b : NdArr F), wrmds fe fbase arr args = .ok w ∧
      rdmds pf (d.write w) fbase { itrs := Spec.itrsFor args.itr, endian := args.endian, fill := fill } = .ok b ∧
      b.shape = (if 1 < prodL lead then [prodL lead] else []) ++ dims ∧
      b.toList = arr.toList.map (Spec.rounded args.prec) := by
  have hdne : dims ≠ [] := by intro e; rw [e] at h2; simp at h2
  obtain ⟨nd, hw⟩ := wrmds_split fe fbase hsplit hdne
  have hR : 0 < prodL lead := by
    clear hsplit hw
    induction lead with
    | nil => exact Nat.one_pos
    | cons n l ih => exact Nat.mul_pos (hlead n (by simp)) (ih (fun m hm => hlead m (by simp [hm])))
  -- split off the last two dimensions
  obtain ⟨gm, gy, gx, hd⟩ : ∃ gm gy gx, dims = gm ++ [gy, gx] := by
    obtain ⟨a, b, hab⟩ : ∃ a b, dims = a ++ b ∧ b.length = 2 :=
      ⟨dims.take (dims.length - 2), dims.drop (dims.length - 2), (List.take_append_drop _ _).symm, by rw [List.length_drop]; omega⟩
    match b, hab.2 with
    | [y, x], _ => exact ⟨a, y, x, hab.1⟩
  let ds : DataSet := ⟨args.prec, prodL lead, [], gm, gy, gx, gm, gy, gx⟩
  have hG : ds.G = dims := hd.symm
  have hZ : ds.Z = dims := hd.symm
  let ma : MetaArgs F := ⟨nd, dims.reverse, args.prec, prodL lead, args.itr, args.times, args.fields, args.simulation⟩
  let w : Written := ⟨nameOf fbase args.itr, metaText fe ma, arr.toList.flatMap (itemBytes args.prec args.endian)⟩
  let box : Box := ⟨List.replicate gm.length 0, 0, 0⟩
  have hstart : box.start ds = List.replicate dims.length 0 := by
    show [] ++ List.replicate gm.length 0 ++ [0, 0] = _
    rw [hd, List.length_append, List.nil_append, List.replicate_append_replicate.symm]
    rfl
  let tile : Spec.MdsTile F := ⟨box, fun idx => arr.toList.getD (ravel (prodL lead :: dims) idx) Arith.zero⟩
  have hcount : arr.toList.length = prodL (prodL lead :: dims) := by
    rw [NdArr.toList_length, hsplit.parts, prodL_append]; rfl
  have hti : ((indices (prodL lead :: dims)).map tile.elem) = arr.toList := NdArr.ofList_toList Arith.zero hcount
  have hmw : Spec.MetaWritable pf fe rnd ma := ⟨by simpa [ma] using hdne, hlab.simulation, hlab.times, hlab.fields⟩
  have hfile : Spec.TileFile pf (d.write w) args.endian ds (metaCommon (Spec.metaEntries rnd ma)) (w.base ++ ".meta".toList) tile := by
    refine ⟨⟨replicate_start gm, Nat.le_of_eq (Nat.zero_add _), Nat.le_of_eq (Nat.zero_add _)⟩, write_mem.2 (.inr (.inl rfl)), ⟨?_⟩,
      by rw [dataOf_meta]; exact write_mem.2 (.inr (.inr rfl)), ?_⟩
    · refine ⟨Spec.metaEntries rnd ma, ?_, ?_, metaEntries_no_m2g rnd ma, ?_⟩
      · have : (d.write w).text (w.base ++ ".meta".toList) = metaText fe ma := if_pos rfl
        rw [this]
        exact C58_meta_round_trip pf fe rnd ma hmw
      · rw [metaEntries_get_dims]
        show _ = some (Spec.dimEntries ds.G (box.start ds) ds.Z)
        rw [hstart, hG, hZ, dimEntries_whole]
      · intro k hk
        unfold metaCommon
        rw [if_neg hk]
    · rw [dataOf_meta]
      have : (d.write w).data (w.base ++ ".data".toList) = arr.toList.flatMap (itemBytes args.prec args.endian) := if_pos rfl
      rw [this, hZ, ← hti, List.flatMap_map]
  have hitr : itrsOf (d.write w) fbase (Spec.itrsFor args.itr) = [args.itr] := by cases args.itr <;> rfl
  have hsel : Spec.Selects ({ itrs := Spec.itrsFor args.itr, endian := args.endian, fill := fill } : RdArgs F) ds [] none
      (List.range (prodL lead)) := ⟨trivial, rfl, trivial, rfl⟩
  have hfound := found_written (d := d) (w := w) hstale
  have hlist : List.range (prodL lead) ≠ [] := by
    intro h
    have := congrArg List.length h
    rw [List.length_range] at this
    simp at this; omega
  obtain ⟨full, a, h3, h4, h5, h6, h7⟩ := rdmds_squeezed (pf := pf) (d := d.write w) (fname := fbase) (tile := fun _ => tile) hsel
    (metaCommon_ok rnd ma ds rfl rfl) ⟨by rw [hitr]; simp, hlist, by simp⟩ rfl (fun it hit => by
      rw [hitr] at hit
      have : it = args.itr := List.mem_singleton.1 hit
      subst this
      exact ⟨⟨_, (hfound _).2 rfl⟩, fun n hn => by
        rw [(hfound n).1 hn]; exact hfile⟩)
  have hl : lastDims ds.gy ds.gx none = [gy, gx] := rfl
  have hod : outDims ds [] none = dims := by rw [hd]; rfl
  have hshape : ([1, prodL lead] : List Nat).filter (1 < ·) = if 1 < prodL lead then [prodL lead] else [] := by
    rw [List.filter_cons, if_neg (by simp), List.filter_cons]
    simp
  have h4' : a.shape = ([1, prodL lead] : List Nat).filter (1 < ·) ++ dims := by
    rw [h4, hitr, List.length_range, hd]; rfl
  rw [hitr, List.length_range, hod] at h6
  have hfull : full.toList = arr.toList.map (Spec.rounded args.prec) := by
    have e : full.toList = (NdArr.mk (F := F) (1 :: prodL lead :: dims) fun idx => Spec.rounded args.prec (tile.elem (idx.drop 1))).toList := by
      apply NdArr.toList_congr
      · exact h6
      · intro idx hidx
        rw [h6] at hidx
        match idx, hidx with
        | i :: k :: q, hidx =>
          have hi : i = 0 := by have h : i < 1 := hidx.1; omega
          subst hi
          have hq : InShape dims q := hidx.2.2
          have hk : k < prodL lead := hidx.2.1
          have hb := (h7 0 k q args.itr k (by rw [hitr]; rfl) (by rw [List.getElem?_range hk]) (by rw [hod]; exact hq)).1
            (w.base ++ ".meta".toList) ((hfound _).2 rfl) (by
              show Spec.Covers (box.start ds) ds.Z q
              rw [hstart, hZ]; exact covers_whole hq) (fun m hm _ => (hfound m).1 hm)
          rw [hb]
          show Spec.rounded args.prec (tile.elem (k :: Spec.within (box.start ds) q)) = _
          rw [hstart, within_zero hq]
          rfl
    rw [e, ← hti, List.map_map]
    unfold NdArr.toList
    show ((List.range 1).flatMap fun i => (indices (prodL lead :: dims)).map (i :: ·)).map _ = _
    simp [List.range_succ, Function.comp_def]
  refine ⟨w, a, hw, h3, by rw [h4', hshape], ?_⟩
  rw [h5, NdArr.ofList_toList _ ?_, hfull]
  rw [NdArr.toList_length, h6, h4', prodL_append, prodL_filter _ (by
    intro n hn
    rcases List.mem_cons.1 hn with rfl | hn
    · exact Nat.one_pos
    · rw [List.mem_singleton.1 hn]; exact hR)]
  show 1 * (prodL lead * prodL dims) = 1 * (prodL lead * 1) * prodL dims
  rw [Nat.one_mul, Nat.one_mul, Nat.mul_one]

/-! ## C70: vectors -/

theorem readmeta_of {pf : Text → Py F} {text : Text} {es : Dict F} {n : Nat} (h : parsemeta pf text = .ok es)
    (hd : es.get "dimList".toList = some [.int n, .int 1, .int n]) : ∃ m : TileMeta F, readmeta pf text = .ok m ∧ m.gdims = [(n : Int)] ∧
      m.i0s = [0] ∧ m.ies = [(n : Int)] ∧
      m.rest.get "dataprec".toList = es.get "dataprec".toList ∧ m.rest.get "nrecords".toList = es.get "nrecords".toList := by
  unfold readmeta
  rw [h, Py.ok_bind]
  dsimp only
  rw [hd]
  refine ⟨_, rfl, rfl, rfl, rfl, ?_, ?_⟩
  · rw [Dict.get_put, if_neg (by decide +kernel), Dict.get_del, if_neg (by decide +kernel), Dict.get_del, if_neg (by decide +kernel),
      Dict.get_del, if_neg (by decide +kernel), Dict.get_del, if_neg (by decide +kernel)]
  · rw [Dict.get_put, if_neg (by decide +kernel), Dict.get_del, if_neg (by decide +kernel), Dict.get_del, if_neg (by decide +kernel),
      Dict.get_del, if_neg (by decide +kernel), Dict.get_del, if_neg (by decide +kernel)]

theorem initState_vector [PyFloat F] (args : RdArgs F) (nit : Nat) {m : TileMeta F} {n r : Nat} {p : Prec} {s : Text} (hg : m.gdims = [(n : Int)])
    (h0 : m.i0s = [0]) (he : m.ies = [(n : Int)])
    (hp : m.rest.get "dataprec".toList = some [.str s]) (hprec : precOf (F := F) (.str s) = .ok p)
    (hr : m.rest.get "nrecords".toList = some [.int r]) : initState args nit m = .error .indexError := by
  unfold initState
  rw [hp]
  dsimp only
  rw [show ∀ x : Val F, one? [x] = .ok x from fun _ => rfl, Py.ok_bind, hprec, Py.ok_bind]
  have hz : List.zipWith (fun i0 ie : Int => ie - i0) m.i0s m.ies = [(n : Int)] := by rw [h0, he]; simp
  rw [hz, hr]
  dsimp only
  rw [if_neg (by simp), List.mapM_cons, List.mapM_nil, show toSize (n : Int) = .ok n from toSize_nat n]
  rw [show ∀ x : Val F, one? [x] = .ok x from fun _ => rfl, hg]
  show (do let _ ← toSize (r : Int); (Except.error PyErr.indexError : Py (RdState F))) = _
  rw [toSize_nat]
  rfl

theorem itrStep_name [PyFloat F] [F64 F] [F32 F] (pf : Text → Py F) (d : MdsDir) (fname : Text) (args : RdArgs F) (nit : Nat)
    (st : Option (RdState F)) (it : Option Nat) (k : Nat) : itrStep pf d fname args nit st (it, k) =
      if d.metafiles (nameOf fname it) = [] then .error .ioError else (d.metafiles (nameOf fname it)).foldlM (tileStep pf d args nit k) st := by
  have h : itrStep pf d fname args nit st (it, k) = match d.metafiles (nameOf fname it) with
      | [] => .error .ioError
      | files => files.foldlM (tileStep pf d args nit k) st := by cases it <;> rfl
  rw [h]
  cases d.metafiles (nameOf fname it) <;> rfl

/-- C70: a vector is written without complaint but cannot be read. -/
theorem C70_vector_unreadable [PyFloat F] [F64 F] [F32 F] [LawfulF64 F] (pf : Text → Py F) (fe : F → Text) (rnd : F → F) (d : MdsDir)
    (fbase : Text) (arr : NdArr F) (args : WrArgs F) (rd : RdArgs F) (lead : List Nat) (n : Nat)
    (hsplit : Spec.Split args.ndims args.nrecords arr.shape lead [n])
    (hlab : Spec.Labels pf fe rnd args) (hstale : ∀ n ∈ d.names, ¬ Spec.TileName (nameOf fbase args.itr) n)
    (hitr : rd.itrs = Spec.itrsFor args.itr) :
    ∃ w : Written, wrmds fe fbase arr args = .ok w ∧ rdmds pf (d.write w) fbase rd = .error .indexError := by
  obtain ⟨nd, hw⟩ := wrmds_split fe fbase hsplit (List.cons_ne_nil _ _)
  refine ⟨_, hw, ?_⟩
  let ma : MetaArgs F := ⟨nd, [n], args.prec, prodL lead, args.itr, args.times, args.fields, args.simulation⟩
  let w : Written := ⟨nameOf fbase args.itr, metaText fe ma, arr.toList.flatMap (itemBytes args.prec args.endian)⟩
  show rdmds pf (d.write w) fbase rd = _
  have hmw : Spec.MetaWritable pf fe rnd ma := ⟨List.cons_ne_nil _ _, hlab.simulation, hlab.times, hlab.fields⟩
  have hfound := found_written (d := d) (w := w) hstale
  have hin : w.base ++ ".meta".toList ∈ (d.write w).metafiles w.base := mem_metafiles.2 ((hfound _).2 rfl)
  have hstep : tileStep pf (d.write w) rd 1 0 none (w.base ++ ".meta".toList) = .error .indexError := by
    obtain ⟨m, hm, h1, h2, h3, h4, h5⟩ := readmeta_of (n := n) (C58_meta_round_trip pf fe rnd ma hmw) (metaEntries_get_dims rnd ma)
    rw [metaEntries_get_prec] at h4
    rw [metaEntries_get_nrec] at h5
    unfold tileStep
    have ht : (d.write w).openText (w.base ++ ".meta".toList) = .ok (metaText fe ma) := by
      unfold MdsDir.openText
      rw [if_pos (write_mem.2 (.inr (.inl rfl)))]
      congr 1
      exact if_pos rfl
    rw [ht, Py.ok_bind, hm, Py.ok_bind]
    show (do let st ← initState rd 1 m; _) = _
    rw [initState_vector rd 1 (p := args.prec) h1 h2 h3 h4 (by show precOf (.str (match args.prec with | .f32 => _ | .f64 => _)) = _; cases args.prec <;> rfl) h5]
    rfl
  have hits : itrsOf (d.write w) fbase rd.itrs = [args.itr] := by rw [hitr]; cases args.itr <;> rfl
  unfold rdmds
  dsimp only
  rw [hits]
  show (do let x ← ((itrStep pf (d.write w) fbase rd 1 none (args.itr, 0)) >>= fun s => (pure s : Py (Option (RdState F)))); _) = _
  have : itrStep pf (d.write w) fbase rd 1 none (args.itr, 0) = .error .indexError := by
    rw [itrStep_name]
    show (if (d.write w).metafiles w.base = [] then _ else ((d.write w).metafiles w.base).foldlM _ _) = _
    cases hf : (d.write w).metafiles w.base with
    | nil => rw [hf] at hin; cases hin
    | cons a l =>
      rw [if_neg (List.cons_ne_nil _ _)]
      have ha : a = w.base ++ ".meta".toList := (hfound a).1 (mem_metafiles.1 (by rw [hf]; simp))
      rw [List.foldlM_cons, ha, hstep]
      rfl
  rw [this]
  rfl

/-! ## C71: stale tiles -/

theorem pyFoldlM_congr {α β : Type} {f g : β → α → Py β} : ∀ (l : List α) (b : β), (∀ x ∈ l, ∀ b, f b x = g b x) → l.foldlM f b = l.foldlM g b
  | [], _, _ => rfl
  | a :: l, b, h => by
    rw [List.foldlM_cons, List.foldlM_cons, h a (by simp)]
    congr 1
    funext c
    exact pyFoldlM_congr l c (fun x hx => h x (by simp [hx]))

/-- C71: while tile files of the same name are there, what was written last is not what is read. -/
theorem C71_stale_tiles_shadow [PyFloat F] [F64 F] [F32 F] (pf : Text → Py F) (fe : F → Text) (d : MdsDir) (fbase : Text) (arr : NdArr F)
    (args : WrArgs F) (rd : RdArgs F) (w : Written) (hw : wrmds fe fbase arr args = .ok w) (hitr : rd.itrs = Spec.itrsFor args.itr)
    (hstale : ∃ n ∈ d.names, Spec.TileName (nameOf fbase args.itr) n) :
    rdmds pf (d.write w) fbase rd = rdmds pf d fbase rd := by
  have hbase : w.base = nameOf fbase args.itr := by
    unfold wrmds at hw
    obtain ⟨nd, _, hw⟩ := bind_ok_inv hw
    dsimp only at hw
    have key : ∀ {c : Prop} [Decidable c] {x : Written} , (if c then (do throw PyErr.valueError; pure x) else (pure x : Py Written)) = .ok w → w = x := by
      intro c _ x h
      by_cases hc : c
      · rw [if_pos hc] at h; cases h
      · rw [if_neg hc] at h; injection h with h; exact h.symm
    cases hn : args.nrecords with
    | none =>
      rw [hn] at hw
      dsimp only at hw
      rw [key hw]
      cases args.itr <;> rfl
    | some r =>
      rw [hn] at hw
      dsimp only at hw
      generalize prodL (if nd = 0 then [] else arr.shape.take (arr.shape.length - nd)) = q at hw
      by_cases hq : r ≠ q
      · rw [if_pos hq] at hw; cases hw
      · rw [if_neg hq] at hw
        rw [key hw]
        cases args.itr <;> rfl
  have hmeta : ∀ s : Text, s.length = 5 → (w.base.isPrefixOf (w.base ++ s) && isTileSuffix ((w.base ++ s).drop w.base.length)) = false := by
    intro s hs
    cases h : (w.base.isPrefixOf (w.base ++ s) && isTileSuffix ((w.base ++ s).drop w.base.length)) with
    | false => rfl
    | true =>
      have := tileName_length (tileName_iff.1 h)
      rw [List.length_append] at this
      omega
  have hfiles : (d.write w).metafiles w.base = d.metafiles w.base := by
    have hfil : (d.write w).names.filter (fun n => w.base.isPrefixOf n && isTileSuffix (n.drop w.base.length)) =
        d.names.filter (fun n => w.base.isPrefixOf n && isTileSuffix (n.drop w.base.length)) := by
      show (d.names ++ _).filter _ = _
      rw [List.filter_append]
      have : ∀ l : List Text, (∀ n ∈ l, n = w.base ++ ".meta".toList ∨ n = w.base ++ ".data".toList) →
          l.filter (fun n => w.base.isPrefixOf n && isTileSuffix (n.drop w.base.length)) = [] := by
        intro l hl
        rw [List.filter_eq_nil_iff]
        intro n hn
        rcases hl n hn with rfl | rfl
        · rw [hmeta _ rfl]; simp
        · rw [hmeta _ rfl]; simp
      rw [this ([w.base ++ ".meta".toList, w.base ++ ".data".toList].filter fun n => n ∉ d.names) (fun n hn => by
        have := (List.mem_filter.1 hn).1
        simpa using this), List.append_nil]
    have hne : d.names.filter (fun n => w.base.isPrefixOf n && isTileSuffix (n.drop w.base.length)) ≠ [] := by
      obtain ⟨n, hn, ht⟩ := hstale
      intro h
      have : n ∈ d.names.filter (fun n => w.base.isPrefixOf n && isTileSuffix (n.drop w.base.length)) :=
        List.mem_filter.2 ⟨hn, tileName_iff.2 (by rw [hbase]; exact ht)⟩
      rw [h] at this; cases this
    unfold MdsDir.metafiles
    dsimp only
    rw [hfil, if_pos hne, if_pos hne]
  have hits : itrsOf (d.write w) fbase rd.itrs = [args.itr] := by rw [hitr]; cases args.itr <;> rfl
  have hits' : itrsOf d fbase rd.itrs = [args.itr] := by rw [hitr]; cases args.itr <;> rfl
  have hopen : ∀ n ∈ d.metafiles w.base, Spec.TileName w.base n := by
    intro n hn
    rcases mem_metafiles.1 hn with ⟨_, ht | ⟨hno, _⟩⟩
    · exact ht
    · obtain ⟨m, hm, ht⟩ := hstale
      exact absurd (by rw [hbase]; exact ht) (hno m hm)
  have htile : ∀ n ∈ d.metafiles w.base, ∀ st, tileStep pf (d.write w) rd 1 0 st n = tileStep pf d rd 1 0 st n := by
    intro n hn st
    have hl := tileName_length (hopen n hn)
    have hne : ∀ m : Text, m.length = w.base.length + 13 → (d.write w).openText m = d.openText m ∧ (d.write w).openData m = d.openData m := by
      intro m hm
      have h1 : m ≠ w.base ++ ".meta".toList := by
        intro e; rw [e, List.length_append] at hm
        have : ".meta".toList.length = 5 := rfl
        omega
      have h2 : m ≠ w.base ++ ".data".toList := by
        intro e; rw [e, List.length_append] at hm
        have : ".data".toList.length = 5 := rfl
        omega
      have hmem : m ∈ (d.write w).names ↔ m ∈ d.names := by
        rw [write_mem]
        exact ⟨fun h => h.resolve_right fun h => h.elim h1 h2, .inl⟩
      have ht : (d.write w).text m = d.text m := if_neg h1
      have hd : (d.write w).data m = d.data m := if_neg h2
      unfold MdsDir.openText MdsDir.openData
      rw [ht, hd]
      constructor
      · by_cases h : m ∈ d.names
        · rw [if_pos (hmem.2 h), if_pos h]
        · rw [if_neg (fun h' => h (hmem.1 h')), if_neg h]
      · by_cases h : m ∈ d.names
        · rw [if_pos (hmem.2 h), if_pos h]
        · rw [if_neg (fun h' => h (hmem.1 h')), if_neg h]
    have hdat : (n.take (n.length - 4) ++ "data".toList).length = w.base.length + 13 := by
      have : "data".toList.length = 4 := rfl
      rw [List.length_append, List.length_take, this]; omega
    unfold tileStep
    rw [(hne n hl).1]
    dsimp only
    rw [(hne _ hdat).2]
  unfold rdmds
  dsimp only
  rw [hits, hits']
  have : itrStep pf (d.write w) fbase rd 1 none (args.itr, 0) = itrStep pf d fbase rd 1 none (args.itr, 0) := by
    rw [itrStep_name, itrStep_name, ← hbase, hfiles, pyFoldlM_congr (d.metafiles w.base) none htile]
  show (do let x ← ((itrStep pf (d.write w) fbase rd 1 none (args.itr, 0)) >>= fun s => (pure s : Py (Option (RdState F)))); _) = _
  rw [this]
  rfl

/-! ## Examples -/

namespace ExWr

open ExTiles (pf)

def arr : NdArr Toy := ⟨[2, 1, 2, 3], fun i => ⟨BitVec.ofNat 64 (10 + ravel [2, 1, 2, 3] i)⟩⟩

def fe : Toy → Text := fun _ => "1.0".toList

def args : WrArgs Toy := { itr := some 12, prec := .f64, ndims := some 2, fields := some ["A".toList, "B".toList] }

/-- Another iteration is there already. -/
def dir : MdsDir := ⟨["T.0000000001.001.001.meta".toList, "T.0000000012.meta".toList], fun _ => "old".toList, fun _ => []⟩

theorem split : Spec.Split args.ndims args.nrecords arr.shape [2, 1] [2, 3] := ⟨rfl, rfl, fun _ h => by cases h⟩

theorem labels : Spec.Labels pf fe id args where
  simulation := fun s hs => by cases hs
  times := fun s hs => by cases hs
  fields := fun fs hfs => by
    cases hfs
    refine ⟨by simp, ?_⟩
    intro f hf
    simp only [List.mem_cons, List.not_mem_nil, or_false] at hf
    rcases hf with rfl | rfl
    · exact ⟨⟨by decide +kernel, by decide +kernel⟩, by decide +kernel⟩
    · exact ⟨⟨by decide +kernel, by decide +kernel⟩, by decide +kernel⟩

theorem noStale : ∀ n ∈ dir.names, ¬ Spec.TileName (nameOf "T".toList args.itr) n := by
  intro n hn ht
  rw [← tileName_iff] at ht
  have : ∀ n ∈ dir.names, ((nameOf "T".toList args.itr).isPrefixOf n && isTileSuffix (n.drop (nameOf "T".toList args.itr).length)) = false := by
    decide +kernel
  rw [this n hn] at ht
  cases ht

example := C59_data_round_trip pf fe id dir "T".toList arr args ⟨0⟩ [2, 1] [2, 3] split (by decide) (by decide) labels noStale

example : (do
    let w ← wrmds fe "T".toList arr args
    let b ← rdmds pf (dir.write w) "T".toList { itrs := .one 12, fill := ⟨0⟩ }
    return (b.shape, b.toList.map (·.bits.toNat))) = (.ok ([2, 2, 3], [10, 11, 12, 13, 14, 15, 16, 17, 18, 19, 20, 21]) : Py (List Nat × List Nat)) := by
  decide +kernel

/-- The number of records decides how many dimensions are folded. -/
example : Spec.Split none (some 2) [2, 1, 2, 3] [2] [1, 2, 3] :=
  ⟨rfl, fun l m e hm => by
    cases l with
    | nil => decide
    | cons a l =>
      have := congrArg List.length e
      rw [List.length_append] at this
      have := List.length_pos_iff.2 hm
      simp only [List.length_cons, List.length_nil] at *
      omega, fun r h => by injection h⟩

example := C70_vector_unreadable pf fe id dir "T".toList ⟨[2, 3], arr.get⟩ { args with ndims := some 1, prec := .f64 }
  { itrs := .one 12, fill := ⟨0⟩ } [2] 3 ⟨rfl, rfl, fun _ h => by cases h⟩ ⟨labels.simulation, labels.times, labels.fields⟩ noStale rfl

/-- The tiles of `ExTiles` are still read after `wrmds` wrote other data under the same name. -/
example : ∃ w, wrmds fe "T".toList arr { args with itr := none } = .ok w ∧
    rdmds pf (ExTiles.dir.write w) "T".toList { fill := ⟨7⟩ } = rdmds pf ExTiles.dir "T".toList { fill := ⟨7⟩ } := by
  obtain ⟨n, hn⟩ := wrmds_split fe "T".toList (arr := arr) (args := { args with itr := none }) split (by simp)
  exact ⟨_, hn, C71_stale_tiles_shadow pf fe ExTiles.dir "T".toList arr { args with itr := none } { fill := ⟨7⟩ } _ hn rfl
    ⟨ExTiles.name1, by decide +kernel, tileName_iff.1 (by decide +kernel)⟩⟩

end ExWr

end SG
