import Verif.Props.MdsData
/-! # Iterations read by `rdmds` (C72, C73) -/

set_option linter.unusedSectionVars false
namespace SG
variable {F : Type}

/-! ## Specification -/

namespace Spec

/-- File name of an iteration: `fname.nnnnnnnnnn<suffix>`. -/
def itrName (fname suffix : Text) (n : Nat) : Text := fname ++ '.' :: padZero 10 (natText n) ++ suffix

/-- The iterations on disk: those with a file `fname.nnnnnnnnnn.001.001.meta`; if there are none, those with `fname.nnnnnnnnnn.meta`. -/
def OnDisk (d : MdsDir) (fname : Text) (n : Nat) : Prop :=
  n < 10 ^ 10 ∧ (itrName fname ".001.001.meta".toList n ∈ d.names ∨
    ((∀ m, m < 10 ^ 10 → itrName fname ".001.001.meta".toList m ∉ d.names) ∧ itrName fname ".meta".toList n ∈ d.names))

end Spec

/-! ## Numbers of ten digits -/

theorem textVal_zeros (k : Nat) (s : Text) : textVal (List.replicate k '0' ++ s) = textVal s := by
  induction k with
  | zero => rfl
  | succ k ih =>
    rw [List.replicate_succ, List.cons_append]
    show List.foldl _ (10 * 0 + ('0'.toNat - '0'.toNat)) _ = _
    exact ih

theorem isDigit_val {c : Char} (h : c.isDigit = true) : 48 ≤ c.toNat ∧ c.toNat ≤ 57 := by
  unfold Char.isDigit at h
  simp only [Bool.and_eq_true, decide_eq_true_eq] at h
  exact ⟨h.1, h.2⟩

theorem snoc_cases {α : Type} (l : List α) (h : l ≠ []) : ∃ m a, l = m ++ [a] := ⟨l.dropLast, l.getLast h, (List.dropLast_concat_getLast h).symm⟩

theorem digits_inj : ∀ (k : Nat) {a b : Text}, a.length = k → b.length = k → (∀ c ∈ a, c.isDigit = true) → (∀ c ∈ b, c.isDigit = true) →
    textVal a = textVal b → a = b
  | 0, a, b, ha, hb, _, _, _ => by
    rw [List.eq_nil_of_length_eq_zero ha, List.eq_nil_of_length_eq_zero hb]
  | k + 1, a, b, ha, hb, hda, hdb, h => by
    obtain ⟨a', x, rfl⟩ := snoc_cases a (by intro e; rw [e] at ha; simp at ha)
    obtain ⟨b', y, rfl⟩ := snoc_cases b (by intro e; rw [e] at hb; simp at hb)
    rw [textVal_snoc, textVal_snoc] at h
    have hx := isDigit_val (hda x (by simp))
    have hy := isDigit_val (hdb y (by simp))
    have e1 : textVal a' = textVal b' := by omega
    have e2 : x.toNat = y.toNat := by omega
    have e3 : x = y := Char.toNat_inj.1 e2
    rw [List.length_append] at ha hb
    rw [digits_inj k (by simpa using ha) (by simpa using hb) (fun c hc => hda c (by simp [hc])) (fun c hc => hdb c (by simp [hc])) e1, e3]

theorem textVal_lt : ∀ (k : Nat) {a : Text}, a.length = k → (∀ c ∈ a, c.isDigit = true) → textVal a < 10 ^ k
  | 0, a, h, _ => by rw [List.eq_nil_of_length_eq_zero h]; decide
  | k + 1, a, h, hd => by
    obtain ⟨a', x, rfl⟩ := snoc_cases a (by intro e; rw [e] at h; simp at h)
    rw [textVal_snoc]
    have hx := isDigit_val (hd x (by simp))
    rw [List.length_append] at h
    have := textVal_lt k (a := a') (by simpa using h) (fun c hc => hd c (by simp [hc]))
    have e : (10 : Nat) ^ (k + 1) = 10 * 10 ^ k := by rw [Nat.pow_succ]; omega
    omega

theorem natTextAux_length : ∀ (fuel n k : Nat), n < fuel → n < 10 ^ k → 0 < k → (natTextAux fuel n).length ≤ k
  | 0, _, _, h, _, _ => by omega
  | fuel + 1, n, k, h, hk, h0 => by
    unfold natTextAux
    by_cases h10 : n < 10
    · rw [if_pos h10]; exact h0
    · rw [if_neg h10, List.length_append]
      match k, h0 with
      | k + 1, _ =>
        have e : (10 : Nat) ^ (k + 1) = 10 * 10 ^ k := by rw [Nat.pow_succ]; omega
        have hk0 : 0 < k := by
          rcases Nat.eq_zero_or_pos k with h | h
          · subst h; simp at hk; omega
          · exact h
        have := natTextAux_length fuel (n / 10) k (by omega) (by omega) hk0
        simp only [List.length_cons, List.length_nil]
        omega

theorem padZero_spec {k n : Nat} (hn : n < 10 ^ k) (hk : 0 < k) : (padZero k (natText n)).length = k ∧
    (∀ c ∈ padZero k (natText n), c.isDigit = true) ∧ textVal (padZero k (natText n)) = n := by
  have hl := natTextAux_length (n + 1) n k (Nat.lt_succ_self n) hn hk
  have hl : (natText n).length ≤ k := hl
  unfold padZero
  refine ⟨by rw [List.length_append, List.length_replicate]; omega, ?_, by rw [textVal_zeros, textVal_natText]⟩
  intro c hc
  rcases List.mem_append.1 hc with h | h
  · rw [(List.mem_replicate.1 h).2]; rfl
  · exact natText_digit n c h

/-- Ten digits are the padded number they write. -/
theorem ten_digits {k : Nat} (hk : 0 < k) {a : Text} (h : a.length = k) (hd : ∀ c ∈ a, c.isDigit = true) : a = padZero k (natText (textVal a)) := by
  obtain ⟨h1, h2, h3⟩ := padZero_spec (textVal_lt k h hd) hk
  exact digits_inj k h h1 hd h2 h3.symm

/-! ## Scanning -/

theorem mem_itrsWith {d : MdsDir} {fname suffix : Text} {n : Nat} :
    n ∈ d.itrsWith fname suffix ↔ n < 10 ^ 10 ∧ Spec.itrName fname suffix n ∈ d.names := by
  unfold MdsDir.itrsWith
  rw [List.mem_filterMap]
  constructor
  · rintro ⟨m, hm, h⟩
    dsimp only at h
    split at h
    · rename_i hc
      simp only [Bool.and_eq_true, decide_eq_true_eq, List.isPrefixOf_iff_prefix, digitsThen, List.all_eq_true] at hc
      obtain ⟨⟨t, rfl⟩, hdot, ⟨hlen, hdig⟩, hsuf⟩ := hc
      rw [List.drop_left] at *
      injection h with h
      have hlt := textVal_lt 10 hlen hdig
      rw [← h]
      refine ⟨hlt, ?_⟩
      have e : t = '.' :: ((t.drop 1).take 10 ++ suffix) := by
        rw [← hsuf, List.take_append_drop]
        calc t = t.take 1 ++ t.drop 1 := (List.take_append_drop 1 t).symm
          _ = _ := by rw [hdot]; rfl
      unfold Spec.itrName
      rw [← ten_digits (by decide) hlen hdig, List.append_assoc, List.cons_append, ← e]
      exact hm
    · cases h
  · rintro ⟨hn, hm⟩
    obtain ⟨h1, h2, h3⟩ := padZero_spec hn (by decide : 0 < 10)
    refine ⟨_, hm, ?_⟩
    dsimp only
    have e : (Spec.itrName fname suffix n).drop fname.length = '.' :: (padZero 10 (natText n) ++ suffix) := by
      unfold Spec.itrName
      rw [List.append_assoc, List.drop_left]; rfl
    have et : (padZero 10 (natText n) ++ suffix).take 10 = padZero 10 (natText n) := List.take_left' h1
    have ed : (padZero 10 (natText n) ++ suffix).drop 10 = suffix := List.drop_left' h1
    rw [e, if_pos]
    · show some (textVal ((padZero 10 (natText n) ++ suffix).take 10)) = _
      rw [et, h3]
    · simp only [Bool.and_eq_true, decide_eq_true_eq, List.isPrefixOf_iff_prefix, digitsThen, List.all_eq_true]
      refine ⟨⟨_, (List.append_assoc _ _ _).symm⟩, rfl, ?_⟩
      rw [show ('.' :: (padZero 10 (natText n) ++ suffix)).drop 1 = padZero 10 (natText n) ++ suffix from rfl, et, ed]
      exact ⟨⟨h1, h2⟩, rfl⟩

theorem mem_insertNat {a b : Nat} : ∀ {l : List Nat}, a ∈ insertNat b l ↔ a = b ∨ a ∈ l
  | [] => by simp [insertNat]
  | c :: l => by
    unfold insertNat
    by_cases h : b ≤ c
    · rw [if_pos h]; simp
    · rw [if_neg h, List.mem_cons, mem_insertNat, List.mem_cons]
      constructor
      · rintro (h | h | h) <;> simp [h]
      · rintro (h | h | h) <;> simp [h]

theorem mem_sortNat {a : Nat} : ∀ {l : List Nat}, a ∈ sortNat l ↔ a ∈ l
  | [] => by simp [sortNat]
  | b :: l => by
    show a ∈ insertNat b (sortNat l) ↔ _
    rw [mem_insertNat, mem_sortNat, List.mem_cons]

theorem insertNat_sorted {b : Nat} : ∀ {l : List Nat}, l.Pairwise (· < ·) → b ∉ l → (insertNat b l).Pairwise (· < ·)
  | [], _, _ => by simp [insertNat]
  | c :: l, h, hb => by
    unfold insertNat
    rw [List.pairwise_cons] at h
    have hbc : b ≠ c := fun e => hb (by simp [e])
    by_cases hle : b ≤ c
    · rw [if_pos hle, List.pairwise_cons]
      refine ⟨?_, List.pairwise_cons.2 h⟩
      intro x hx
      rcases List.mem_cons.1 hx with rfl | hx
      · omega
      · have := h.1 x hx; omega
    · rw [if_neg hle, List.pairwise_cons]
      refine ⟨?_, insertNat_sorted h.2 (fun hm => hb (by simp [hm]))⟩
      intro x hx
      rcases mem_insertNat.1 hx with rfl | hx
      · omega
      · exact h.1 x hx

theorem sortNat_sorted : ∀ {l : List Nat}, l.Nodup → (sortNat l).Pairwise (· < ·)
  | [], _ => List.Pairwise.nil
  | b :: l, h => by
    rw [List.nodup_cons] at h
    exact insertNat_sorted (sortNat_sorted h.2) (fun hm => h.1 (mem_sortNat.1 hm))

theorem itrName_inj {fname suffix : Text} {a b : Nat} (ha : a < 10 ^ 10) (hb : b < 10 ^ 10)
    (h : Spec.itrName fname suffix a = Spec.itrName fname suffix b) : a = b := by
  unfold Spec.itrName at h
  have h := List.append_cancel_left (List.append_cancel_right h)
  injection h with _ h
  rw [← (padZero_spec ha (by decide : 0 < 10)).2.2, h, (padZero_spec hb (by decide : 0 < 10)).2.2]

theorem itrsWith_nodup {d : MdsDir} (h : d.names.Nodup) (fname suffix : Text) : (d.itrsWith fname suffix).Nodup := by
  unfold MdsDir.itrsWith
  have key : ∀ l : List Text, l.Nodup → (l.filterMap fun n =>
      let s := n.drop fname.length
      if fname.isPrefixOf n && (s.take 1 = ['.'] && digitsThen 10 (s.drop 1) fun s => s = suffix) then some (textVal ((s.drop 1).take 10))
      else none).Nodup := by
    intro l
    induction l with
    | nil => intro _; exact List.Pairwise.nil
    | cons a l ih =>
      intro hn
      rw [List.nodup_cons] at hn
      rw [List.filterMap_cons]
      cases hf : (let s := a.drop fname.length
          if fname.isPrefixOf a && (s.take 1 = ['.'] && digitsThen 10 (s.drop 1) fun s => s = suffix) then some (textVal ((s.drop 1).take 10))
          else none) with
      | none => exact ih hn.2
      | some v =>
        have hone : ∀ b : Text, (let s := b.drop fname.length
            if fname.isPrefixOf b && (s.take 1 = ['.'] && digitsThen 10 (s.drop 1) fun s => s = suffix) then some (textVal ((s.drop 1).take 10))
            else none) = some v → b = Spec.itrName fname suffix v := by
          intro b hb
          have hm : v ∈ (MdsDir.mk [b] (fun _ => []) (fun _ => [])).itrsWith fname suffix := by
            unfold MdsDir.itrsWith
            rw [List.mem_filterMap]
            exact ⟨b, by simp, hb⟩
          have := (mem_itrsWith.1 hm).2
          exact (List.mem_singleton.1 this).symm
        show (v :: _).Nodup
        rw [List.nodup_cons]
        refine ⟨?_, ih hn.2⟩
        intro hm
        rw [List.mem_filterMap] at hm
        obtain ⟨b, hb, e⟩ := hm
        exact hn.1 (by rw [hone a hf, ← hone b e]; exact hb)
  exact key _ h

/-- What `scanforfiles` gives: the iterations on disk in ascending order. -/
theorem scan_spec (d : MdsDir) (fname : Text) (hd : d.names.Nodup) :
    (d.scan fname).Pairwise (· < ·) ∧ ∀ n, n ∈ d.scan fname ↔ Spec.OnDisk d fname n := by
  have hnil : d.itrsWith fname ".001.001.meta".toList = [] ↔ ∀ m, m < 10 ^ 10 → Spec.itrName fname ".001.001.meta".toList m ∉ d.names := by
    rw [List.eq_nil_iff_forall_not_mem]
    constructor
    · intro h m hm hin; exact h m (mem_itrsWith.2 ⟨hm, hin⟩)
    · intro h m hm; exact h m (mem_itrsWith.1 hm).1 (mem_itrsWith.1 hm).2
  unfold MdsDir.scan
  dsimp only
  constructor
  · apply sortNat_sorted
    split
    · exact itrsWith_nodup hd _ _
    · exact itrsWith_nodup hd _ _
  · intro n
    rw [mem_sortNat]
    unfold Spec.OnDisk
    split
    · rename_i h
      rw [mem_itrsWith]
      have := hnil.1 h
      constructor
      · rintro ⟨h1, h2⟩; exact ⟨h1, .inr ⟨this, h2⟩⟩
      · rintro ⟨h1, h2 | h2⟩
        · exact absurd h2 (this n h1)
        · exact ⟨h1, h2.2⟩
    · rename_i h
      rw [mem_itrsWith]
      constructor
      · rintro ⟨h1, h2⟩; exact ⟨h1, .inl h2⟩
      · rintro ⟨h1, h2 | h2⟩
        · exact ⟨h1, h2⟩
        · exact absurd (hnil.2 h2.1) h

theorem rdmds_itrs [PyFloat F] [F64 F] [F32 F] (pf : Text → Py F) (d : MdsDir) (fname : Text) (args args' : RdArgs F)
    (h : itrsOf d fname args.itrs = itrsOf d fname args'.itrs) (he : args' = { args with itrs := args'.itrs }) (hs : args.squeeze = true ∨ args.itrs.isList = args'.itrs.isList) :
    rdmds pf d fname args = rdmds pf d fname args' := by
  obtain ⟨i, a, b, c, e, f, g⟩ := args
  obtain ⟨i', a', b', c', e', f', g'⟩ := args'
  simp only [RdArgs.mk.injEq, true_and] at he
  obtain ⟨rfl, rfl, rfl, rfl, rfl, rfl⟩ := he
  have hq : ∀ dims, squeezed (F := F) ⟨i, a', b', c', e', f', g'⟩ dims = squeezed ⟨i', a', b', c', e', f', g'⟩ dims := by
    intro dims
    unfold squeezed
    rcases hs with hs | hs
    · have hs : g' = true := hs
      subst hs
      rfl
    · have hs : i.isList = i'.isList := hs
      dsimp only
      rw [hs]
  have hst : ∀ nit, itrStep pf d fname (⟨i, a', b', c', e', f', g'⟩ : RdArgs F) nit = itrStep pf d fname ⟨i', a', b', c', e', f', g'⟩ nit := fun _ => rfl
  unfold rdmds
  dsimp only at h ⊢
  rw [h]
  congr 1
  funext st
  cases st with
  | none => rfl
  | some st =>
    dsimp only
    rw [hq]

/-- C72: NaN stands for the list of the iterations on disk, in ascending order. -/
theorem C72_nan_reads_all [PyFloat F] [F64 F] [F32 F] (pf : Text → Py F) (d : MdsDir) (fname : Text) (args : RdArgs F) (hd : d.names.Nodup)
    (h : args.itrs = .all) : ∃ l : List Nat, l.Pairwise (· < ·) ∧ (∀ n, n ∈ l ↔ Spec.OnDisk d fname n) ∧
      rdmds pf d fname args = rdmds pf d fname { args with itrs := .many l } := by
  obtain ⟨h1, h2⟩ := scan_spec d fname hd
  exact ⟨_, h1, h2, rdmds_itrs pf d fname args { args with itrs := .many (d.scan fname) } (by rw [h]; rfl) rfl (.inr (by rw [h]; rfl))⟩

/-- C72: infinity stands for the highest iteration on disk. -/
theorem C72_inf_reads_last [PyFloat F] [F64 F] [F32 F] (pf : Text → Py F) (d : MdsDir) (fname : Text) (args : RdArgs F) (hd : d.names.Nodup)
    (h : args.itrs = .last) (n : Nat) (hn : Spec.OnDisk d fname n) (hmax : ∀ m, Spec.OnDisk d fname m → m ≤ n) :
    rdmds pf d fname args = rdmds pf d fname { args with itrs := .one n } := by
  obtain ⟨h1, h2⟩ := scan_spec d fname hd
  have hlast : (d.scan fname).drop ((d.scan fname).length - 1) = [n] := by
    have hm := (h2 n).2 hn
    have hne : d.scan fname ≠ [] := List.ne_nil_of_mem hm
    obtain ⟨l, x, e⟩ := snoc_cases _ hne
    rw [e] at h1 hm
    have hx : x ≤ n := hmax x ((h2 x).1 (by rw [e]; simp))
    have : n = x := by
      rcases List.mem_append.1 hm with hm | hm
      · have := (List.pairwise_append.1 h1).2.2 n hm x (by simp)
        omega
      · exact List.mem_singleton.1 hm
    rw [e, this, List.length_append, show l.length + [x].length - 1 = l.length by simp, List.drop_left]
  refine rdmds_itrs pf d fname args { args with itrs := .one n } ?_ rfl (.inr (by rw [h]; rfl))
  rw [h]
  show ((d.scan fname).drop ((d.scan fname).length - 1)).map some = [some n]
  rw [hlast]; rfl

/-- C72: with no iterations on disk, NaN and infinity give an empty array, not an error. -/
theorem C72_none_on_disk [PyFloat F] [F64 F] [F32 F] (pf : Text → Py F) (d : MdsDir) (fname : Text) (args : RdArgs F) (hd : d.names.Nodup)
    (h : args.itrs = .all ∨ args.itrs = .last) (hno : ∀ n, ¬ Spec.OnDisk d fname n) :
    ∃ a : NdArr F, rdmds pf d fname args = .ok a ∧ a.shape = [0] := by
  obtain ⟨h1, h2⟩ := scan_spec d fname hd
  have hs : d.scan fname = [] := List.eq_nil_iff_forall_not_mem.2 fun n hn => hno n ((h2 n).1 hn)
  have hi : itrsOf d fname args.itrs = [] := by
    rcases h with h | h
    · rw [h]; show (d.scan fname).map some = []; rw [hs]; rfl
    · rw [h]; show ((d.scan fname).drop _).map some = []; rw [hs]; rfl
  unfold rdmds
  dsimp only
  rw [hi]
  exact ⟨_, rfl, rfl⟩

/-! ## Several iterations -/

theorem squeezed_toList {its : List (Option Nat)} {L : List (List Nat)} {K : List Nat} {ds : DataSet} {w : Win} {z : F} {full a : NdArr F}
    (hsome : Spec.Something its L K)
    (h2 : a.shape = (its.length :: K.length :: L.map List.length).filter (1 < ·) ++ (ds.gm ++ lastDims ds.gy ds.gx w))
    (h3 : a = NdArr.ofList z a.shape full.toList) (h4 : full.shape = its.length :: K.length :: outDims ds L w) : a.toList = full.toList := by
  rw [h3]
  refine NdArr.ofList_toList _ ?_
  rw [NdArr.toList_length, h4, h2, prodL_append, prodL_filter]
  · unfold outDims
    rw [List.append_assoc, ← prodL_append]
    rfl
  · intro n hn
    rcases List.mem_cons.1 hn with rfl | hn
    · exact List.length_pos_iff.2 hsome.1
    · rcases List.mem_cons.1 hn with rfl | hn
      · exact List.length_pos_iff.2 hsome.2.1
      · obtain ⟨l, hl, rfl⟩ := List.mem_map.1 hn
        exact List.length_pos_iff.2 (hsome.2.2 l hl)

theorem flatMap_range {α β : Type} (f : Nat → List β) (g : α → List β) : ∀ (l : List α) (k : Nat), (∀ i a, l[i]? = some a → f (k + i) = g a) →
    (List.range' k l.length).flatMap f = l.flatMap g
  | [], _, _ => rfl
  | a :: l, k, h => by
    have h0 := h 0 a rfl
    rw [Nat.add_zero] at h0
    rw [List.length_cons, List.range'_succ, List.flatMap_cons, List.flatMap_cons, ← h0,
      flatMap_range f g l (k + 1) (fun i b hb => by rw [← h (i + 1) b hb]; congr 1; omega)]

/-- C73: reading several iterations is reading them one by one. -/
theorem C73_iterations_stacked [PyFloat F] [F64 F] [F32 F] [LawfulF64 F] (pf : Text → Py F) (d : MdsDir) (fname : Text) (args : RdArgs F)
    (ds : DataSet) (common : Text → Option (List (Val F))) (tile : Text → Spec.MdsTile F) (L : List (List Nat)) (w : Win) (K : List Nat)
    (hsel : Spec.Selects args ds L w K) (hc : Spec.Common ds common) (hsome : Spec.Something (itrsOf d fname args.itrs) L K)
    (hsq : args.squeeze = true)
    (hfiles : ∀ it ∈ itrsOf d fname args.itrs, (∃ n, Spec.Found d (nameOf fname it) n) ∧
      (∀ n, Spec.Found d (nameOf fname it) n → Spec.TileFile pf d args.endian ds common n (tile n)) ∧
      Spec.Apart d (nameOf fname it) ds tile) :
    ∃ (a : NdArr F) (part : Option Nat → NdArr F), rdmds pf d fname args = .ok a ∧
      (∀ it ∈ itrsOf d fname args.itrs, rdmds pf d fname { args with itrs := Spec.itrsFor it } = .ok (part it) ∧
        a.shape = (if 1 < (itrsOf d fname args.itrs).length then [(itrsOf d fname args.itrs).length] else []) ++ (part it).shape) ∧
      a.toList = (itrsOf d fname args.itrs).flatMap fun it => (part it).toList := by
  obtain ⟨full, a, h1, h2, h3, h4, h5⟩ := rdmds_squeezed (pf := pf) (tile := tile) hsel hc hsome hsq
    (fun it hit => ⟨(hfiles it hit).1, (hfiles it hit).2.1⟩)
  have hone : ∀ it, ∃ b : NdArr F, it ∈ itrsOf d fname args.itrs → rdmds pf d fname { args with itrs := Spec.itrsFor it } = .ok b ∧
      b.shape = (K.length :: L.map List.length).filter (1 < ·) ++ (ds.gm ++ lastDims ds.gy ds.gx w) ∧
      ∀ i, (itrsOf d fname args.itrs)[i]? = some it → b.toList = (indices (K.length :: outDims ds L w)).map fun idx => full.get (i :: idx) := by
    intro it
    by_cases hit : ¬ it ∈ itrsOf d fname args.itrs
    · exact ⟨⟨[], fun _ => Arith.zero⟩, fun h => absurd h hit⟩
    have hit := Decidable.not_not.1 hit
    have hi : itrsOf d fname (Spec.itrsFor it) = [it] := by cases it <;> rfl
    have hsome' : Spec.Something (itrsOf d fname (Spec.itrsFor it)) L K := ⟨by rw [hi]; simp, hsome.2⟩
    obtain ⟨fl, b, g1, g2, g3, g4, g5⟩ := rdmds_squeezed (pf := pf) (d := d) (fname := fname) (args := { args with itrs := Spec.itrsFor it })
      (tile := tile) ⟨hsel.levs, hsel.levLen, hsel.region, hsel.recs⟩ hc hsome' hsq (fun it' hit' => by
        have hit' : it' ∈ itrsOf d fname (Spec.itrsFor it) := hit'
        rw [hi] at hit'
        rw [List.mem_singleton.1 hit']
        exact ⟨(hfiles it hit).1, (hfiles it hit).2.1⟩)
    have gl := squeezed_toList hsome' g2 g3 g4
    dsimp only at g2 g4 g5
    rw [hi] at g2 g4
    refine ⟨b, fun _ => ⟨g1, ?_, ?_⟩⟩
    · rw [g2, List.filter_cons, if_neg (by simp)]
    · intro i hii
      rw [gl]
      have e : fl.toList = (indices (K.length :: outDims ds L w)).map fun idx => fl.get (0 :: idx) := by
        show (indices fl.shape).map fl.get = _
        rw [g4]
        show ((List.range 1).flatMap fun i => (indices (K.length :: outDims ds L w)).map (i :: ·)).map _ = _
        simp [List.range_succ, Function.comp_def]
      rw [e]
      apply List.map_congr_left
      intro idx hidx
      have hidx := mem_indices.1 hidx
      match idx, hidx with
      | k :: q, ⟨hk, hq⟩ =>
        exact belongs_unique (hfiles it hit).2.2 (g5 0 k q it K[k] (by rw [hi]; rfl) (List.getElem?_eq_getElem hk) hq)
          (h5 i k q it K[k] hii (List.getElem?_eq_getElem hk) hq)
  refine ⟨a, fun it => Classical.choose (hone it), h1, ?_, ?_⟩
  · intro it hit
    obtain ⟨g1, g2, -⟩ := Classical.choose_spec (hone it) hit
    refine ⟨g1, ?_⟩
    rw [g2, h2, List.filter_cons]
    by_cases hl : 1 < (itrsOf d fname args.itrs).length
    · rw [if_pos hl, if_pos (by simpa using hl)]; rfl
    · rw [if_neg hl, if_neg (by simpa using hl)]; rfl
  · rw [squeezed_toList hsome h2 h3 h4]
    show (indices full.shape).map full.get = _
    rw [h4]
    show ((List.range _).flatMap fun i => (indices (K.length :: outDims ds L w)).map (i :: ·)).map _ = _
    rw [List.map_flatMap, List.range_eq_range']
    apply flatMap_range
    intro i it hit
    rw [Nat.zero_add, (Classical.choose_spec (hone it) (List.mem_of_getElem? hit)).2.2 i hit, List.map_map]
    rfl

/-! ## C74: `squeeze=False` -/

namespace Spec

/-- The dimensions that come from lists. -/
def keep : List (Nat × Bool) → List Nat
  | [] => []
  | (n, true) :: l => n :: keep l
  | (_, false) :: l => keep l

/-- Is the argument a list? -/
def isList : Sel → Bool
  | .one _ => false
  | .many _ => true

end Spec

theorem keep_eq : ∀ (dims : List Nat) (ks : List Bool), (List.zip dims ks).filterMap (fun x => if x.2 then some x.1 else none) = Spec.keep (List.zip dims ks)
  | [], _ => rfl
  | _ :: _, [] => rfl
  | n :: dims, true :: ks => by
    show n :: _ = n :: _
    exact congrArg (n :: ·) (keep_eq dims ks)
  | n :: dims, false :: ks => keep_eq dims ks

theorem all2_length {α β : Type} {r : α → β → Prop} : ∀ {l : List α} {m : List β}, Spec.All2 r l m → l.length = m.length
  | [], [], _ => rfl
  | _ :: l, _ :: m, h => by rw [List.length_cons, List.length_cons, all2_length h.2]

theorem lev_keep {gl : List Nat} : ∀ {lev : List Sel} {L : List (List Nat)}, lev.length = gl.length →
    Spec.All2 (fun (x : Sel × Nat) l => l.length ≤ x.2 ∧ Spec.All2 (Spec.Index x.2) x.1.list l) (List.zip lev gl) L →
    prodL (Spec.keep (List.zip (L.map List.length) (lev.map Spec.isList))) = prodL (L.map List.length) ∧ L.length = lev.length := by
  induction gl with
  | nil =>
    intro lev L h hL
    match lev, L, h, hL with
    | [], [], _, _ => exact ⟨rfl, rfl⟩
  | cons g gl ih =>
    intro lev L h hL
    match lev, L, h, hL with
    | s :: lev, l :: L, h, hL =>
      obtain ⟨e1, e2⟩ := ih (lev := lev) (L := L) (by simpa using h) hL.2
      refine ⟨?_, by rw [List.length_cons, List.length_cons, e2]⟩
      cases s with
      | one z =>
        have h1 : [z].length = l.length := all2_length hL.1.2
        show prodL (Spec.keep (List.zip (L.map List.length) (lev.map Spec.isList))) = l.length * _
        rw [e1, ← h1]; simp
      | many zs =>
        show l.length * prodL (Spec.keep (List.zip (L.map List.length) (lev.map Spec.isList))) = l.length * _
        rw [e1]

theorem itrs_single (d : MdsDir) (fname : Text) (its : Itrs) (h : its.isList = false) : (itrsOf d fname its).length ≤ 1 := by
  cases its with
  | noItr => exact Nat.le_refl _
  | one n => exact Nat.le_refl _
  | many l => cases h
  | all => cases h
  | last =>
    show ((d.scan fname).drop _ |>.map some).length ≤ 1
    rw [List.length_map, List.length_drop]; omega

def recIterable : Option Sel → Bool
  | none => false
  | some s => s.iterable

theorem squeezed_false {args : RdArgs F} (h : args.squeeze = false) (n k : Nat) (D : List Nat) : squeezed args (n :: k :: D) =
    (if args.itrs.isList then [n] else []) ++ (if recIterable args.rec? then [k] else []) ++
      Spec.keep (List.zip D (args.lev.map Spec.isList)) := by
  have hl : args.lev.map Sel.iterable = args.lev.map Spec.isList := by
    apply List.map_congr_left; intro s _; cases s <;> rfl
  unfold squeezed
  rw [h, if_neg (by simp), keep_eq, hl]
  have hm : (match args.rec? with | none => false | some s => s.iterable) = recIterable args.rec? := by cases args.rec? <;> rfl
  have key : ∀ a b : Bool, Spec.keep (List.zip (n :: k :: D) (a :: b :: args.lev.map Spec.isList)) =
      (if a then [n] else []) ++ (if b then [k] else []) ++ Spec.keep (List.zip D (args.lev.map Spec.isList)) := by
    intro a b; cases a <;> cases b <;> rfl
  exact (congrArg (fun b => Spec.keep (List.zip (n :: k :: D) (args.itrs.isList :: b :: args.lev.map Spec.isList))) hm).trans (key _ _)

/-- C74: with `squeeze=False`, dimensions from lists are kept, those from scalars dropped. -/
theorem C74_keeps_list_dimensions [PyFloat F] [F64 F] [F32 F] [LawfulF64 F] (pf : Text → Py F) (d : MdsDir) (fname : Text) (args : RdArgs F)
    (ds : DataSet) (common : Text → Option (List (Val F))) (tile : Text → Spec.MdsTile F) (L : List (List Nat)) (w : Win) (K : List Nat)
    (s : Sel) (hrec : args.rec? = some s)
    (hsel : Spec.Selects args ds L w K) (hc : Spec.Common ds common) (hits : itrsOf d fname args.itrs ≠ [])
    (hsq : args.squeeze = false)
    (hfiles : ∀ it ∈ itrsOf d fname args.itrs, (∃ n, Spec.Found d (nameOf fname it) n) ∧
      ∀ n, Spec.Found d (nameOf fname it) n → Spec.TileFile pf d args.endian ds common n (tile n)) :
    ∃ full a : NdArr F, rdmds pf d fname args = .ok a ∧
      a.shape = (if args.itrs.isList then [(itrsOf d fname args.itrs).length] else []) ++ (if Spec.isList s then [K.length] else []) ++
        Spec.keep (List.zip (L.map List.length) (args.lev.map Spec.isList)) ++ (ds.gm ++ lastDims ds.gy ds.gx w) ∧
      a.toList = full.toList ∧ full.shape = (itrsOf d fname args.itrs).length :: K.length :: outDims ds L w ∧
      ∀ (i k : Nat) (q : List Nat) (it : Option Nat) (r : Nat), (itrsOf d fname args.itrs)[i]? = some it → K[k]? = some r →
        InShape (outDims ds L w) q →
        Spec.Belongs d (nameOf fname it) ds tile args.fill r (Spec.position L w q) (full.get (i :: k :: q)) := by
  obtain ⟨full, h1, h2, h3⟩ := rdmds_reads hsel hc hits hfiles
  have hs : recIterable args.rec? = Spec.isList s := by rw [hrec]; cases s <;> rfl
  rw [squeezed_false hsq] at h3
  have hk : (if Spec.isList s then [K.length] else []) = (if recIterable args.rec? then [K.length] else []) := by
    rw [hs]
  have e1 : prodL (if args.itrs.isList then [(itrsOf d fname args.itrs).length] else []) = (itrsOf d fname args.itrs).length := by
    have hpos := List.length_pos_iff.2 hits
    cases hl : args.itrs.isList with
    | true => show _ * 1 = _; rw [Nat.mul_one]
    | false =>
      have := itrs_single d fname args.itrs hl
      show 1 = _; omega
  have e2 : prodL (if Spec.isList s then [K.length] else []) = K.length := by
    have hr := hsel.recs
    rw [hrec] at hr
    cases s with
    | one z =>
      have : [z].length = K.length := all2_length hr
      show 1 = _; simpa using this
    | many l => show _ * 1 = _; rw [Nat.mul_one]
  have hprod : prodL ((if args.itrs.isList then [(itrsOf d fname args.itrs).length] else []) ++
      (if recIterable args.rec? then [K.length] else []) ++
        Spec.keep (List.zip (L.map List.length) (args.lev.map Spec.isList)) ++ (ds.gm ++ lastDims ds.gy ds.gx w)) = prodL full.shape := by
    rw [prodL_append, prodL_append, prodL_append, ← hk, e1, e2, (lev_keep hsel.levLen hsel.levs).1, h1]
    unfold outDims
    rw [List.append_assoc]
    show _ = _ * (_ * prodL (L.map List.length ++ _))
    rw [prodL_append (L.map List.length), Nat.mul_assoc, Nat.mul_assoc]
  obtain ⟨a, g1, g2, g3⟩ := NdArr.reshape_ok Arith.zero hprod
  exact ⟨full, a, h3.trans g1, by rw [hk]; exact g2, g3, h1, h2⟩

/-- C74: with `squeeze=False` and more than one record, all records (`rec=None`) cannot be read. -/
theorem C74_all_records_raise [PyFloat F] [F64 F] [F32 F] [LawfulF64 F] (pf : Text → Py F) (d : MdsDir) (fname : Text) (args : RdArgs F)
    (ds : DataSet) (common : Text → Option (List (Val F))) (tile : Text → Spec.MdsTile F) (L : List (List Nat)) (w : Win) (K : List Nat)
    (hrec : args.rec? = none) (hR : ds.R ≠ 1)
    (hsel : Spec.Selects args ds L w K) (hc : Spec.Common ds common) (hits : itrsOf d fname args.itrs ≠ [])
    (hsq : args.squeeze = false) (hpos : ∀ n ∈ outDims ds L w, 0 < n)
    (hfiles : ∀ it ∈ itrsOf d fname args.itrs, (∃ n, Spec.Found d (nameOf fname it) n) ∧
      ∀ n, Spec.Found d (nameOf fname it) n → Spec.TileFile pf d args.endian ds common n (tile n)) :
    rdmds pf d fname args = .error .valueError := by
  obtain ⟨full, h1, h2, h3⟩ := rdmds_reads hsel hc hits hfiles
  rw [squeezed_false hsq] at h3
  have hs : recIterable args.rec? = false := by rw [hrec]; rfl
  rw [hs] at h3
  have hK : K.length = ds.R := by
    have hr := hsel.recs
    rw [hrec] at hr
    rw [hr, List.length_range]
  have e1 : prodL (if args.itrs.isList then [(itrsOf d fname args.itrs).length] else []) = (itrsOf d fname args.itrs).length := by
    have hpos := List.length_pos_iff.2 hits
    cases hl : args.itrs.isList with
    | true => show _ * 1 = _; rw [Nat.mul_one]
    | false =>
      have := itrs_single d fname args.itrs hl
      show 1 = _; omega
  have hprodpos : ∀ l : List Nat, (∀ n ∈ l, 0 < n) → 0 < prodL l := by
    intro l
    induction l with
    | nil => intro _; exact Nat.one_pos
    | cons n l ih => intro h; exact Nat.mul_pos (h n (by simp)) (ih (fun m hm => h m (by simp [hm])))
  rw [h3]
  unfold NdArr.reshape
  rw [if_neg]
  rw [prodL_append, prodL_append, prodL_append, e1, (lev_keep hsel.levLen hsel.levs).1, h1]
  have ho : prodL (outDims ds L w) = prodL (L.map List.length) * prodL (ds.gm ++ lastDims ds.gy ds.gx w) := by
    unfold outDims
    rw [List.append_assoc, prodL_append]
  have hp := hprodpos _ hpos
  show ¬ _ * 1 * _ * _ = _ * (_ * prodL (outDims ds L w))
  rw [hK, Nat.mul_one, Nat.mul_assoc, ← ho]
  intro h
  have h := Nat.eq_of_mul_eq_mul_left (List.length_pos_iff.2 hits) h
  have h : 1 * prodL (outDims ds L w) = ds.R * prodL (outDims ds L w) := by rw [Nat.one_mul]; exact h
  exact hR (Nat.eq_of_mul_eq_mul_right hp h).symm

/-! ## Examples -/

namespace ExIters

open ExTiles (pf ds tile1 tile2 text1 text2 shared own1 own2 bytesOf common shared_get)

/-- Two iterations, one tile each (columns 0 and 2). -/
def nameA : Text := "T.0000000012.001.001.meta".toList
def nameB : Text := "T.0000000003.001.001.meta".toList
def dataA : Text := "T.0000000012.001.001.data".toList
def dataB : Text := "T.0000000003.001.001.data".toList

def dir : MdsDir := ⟨[dataA, nameA, nameB, dataB], fun n => if n = nameA then text1 else text2,
  fun n => if n = dataA then bytesOf tile1 else bytesOf tile2⟩

def tile (n : Text) : Spec.MdsTile Toy := if n = nameA then tile1 else tile2

theorem filesA : dir.metafiles (nameOf "T".toList (some 12)) = [nameA] := by decide +kernel
theorem filesB : dir.metafiles (nameOf "T".toList (some 3)) = [nameB] := by decide +kernel

theorem fileA : Spec.TileFile pf dir .big ds shared.get nameA (tile nameA) where
  fits := ⟨trivial, by decide +kernel, by decide +kernel⟩
  metaIn := by decide +kernel
  says := ⟨("dimList".toList, own1) :: shared, by decide +kernel, by decide +kernel, by decide +kernel, fun _ hk => shared_get hk⟩
  dataIn := by decide +kernel
  data := by decide +kernel

theorem fileB : Spec.TileFile pf dir .big ds shared.get nameB (tile nameB) where
  fits := ⟨trivial, by decide +kernel, by decide +kernel⟩
  metaIn := by decide +kernel
  says := ⟨("dimList".toList, own2) :: shared, by decide +kernel, by decide +kernel, by decide +kernel, fun _ hk => shared_get hk⟩
  dataIn := by decide +kernel
  data := by decide +kernel

/-- The second level, one record. -/
def args : RdArgs Toy := { itrs := .all, fill := ⟨7⟩, rec? := some (.one 0), lev := [.one 1] }

theorem iters : itrsOf dir "T".toList .all = [some 3, some 12] := by decide +kernel

theorem selects : Spec.Selects args ds [[1]] none [0] where
  levs := ⟨⟨by decide, ⟨by decide, .inl rfl⟩, trivial⟩, trivial⟩
  levLen := rfl
  region := trivial
  recs := ⟨⟨by decide, .inl rfl⟩, trivial⟩

theorem one_file {it : Option Nat} {n : Text} (h : dir.metafiles (nameOf "T".toList it) = [n])
    (ht : Spec.TileFile pf dir .big ds shared.get n (tile n)) : (∃ n, Spec.Found dir (nameOf "T".toList it) n) ∧
    (∀ n, Spec.Found dir (nameOf "T".toList it) n → Spec.TileFile pf dir .big ds shared.get n (tile n)) ∧
    Spec.Apart dir (nameOf "T".toList it) ds tile := by
  refine ⟨⟨n, mem_metafiles.1 (by rw [h]; simp)⟩, ?_, ?_⟩
  · intro m hm
    rw [← mem_metafiles, h] at hm
    rw [List.mem_singleton.1 hm]; exact ht
  · intro p a b ha hb _ _
    rw [← mem_metafiles, h] at ha hb
    rw [List.mem_singleton.1 ha, List.mem_singleton.1 hb]

theorem all_files : ∀ it ∈ itrsOf dir "T".toList .all, (∃ n, Spec.Found dir (nameOf "T".toList it) n) ∧
    (∀ n, Spec.Found dir (nameOf "T".toList it) n → Spec.TileFile pf dir .big ds shared.get n (tile n)) ∧
    Spec.Apart dir (nameOf "T".toList it) ds tile := by
  intro it hit
  rw [iters] at hit
  simp only [List.mem_cons, List.not_mem_nil, or_false] at hit
  rcases hit with rfl | rfl
  · exact one_file filesB fileB
  · exact one_file filesA fileA

example := C72_nan_reads_all pf dir "T".toList args (by decide +kernel) rfl

example : rdmds pf dir "T".toList { args with itrs := .last } = rdmds pf dir "T".toList { args with itrs := .one 12 } :=
  C72_inf_reads_last pf dir "T".toList { args with itrs := .last } (by decide +kernel) rfl 12 ⟨by decide, .inl (by decide +kernel)⟩ (by
    intro m hm
    have := ((scan_spec dir "T".toList (by decide +kernel)).2 m).2 hm
    rw [show dir.scan "T".toList = [3, 12] by decide +kernel] at this
    simp only [List.mem_cons, List.not_mem_nil, or_false] at this
    omega)

example : ∃ a : NdArr Toy, rdmds pf dir "S".toList args = .ok a ∧ a.shape = [0] :=
  C72_none_on_disk pf dir "S".toList args (by decide +kernel) (.inl rfl) (by
    intro n hn
    have := ((scan_spec dir "S".toList (by decide +kernel)).2 n).2 hn
    rw [show dir.scan "S".toList = [] by decide +kernel] at this
    cases this)

example := C73_iterations_stacked pf dir "T".toList args ds shared.get tile [[1]] none [0] selects common
  ⟨by show itrsOf dir "T".toList .all ≠ []; rw [iters]; simp, by simp, by simp⟩ rfl all_files

example : (rdmds pf dir "T".toList args).map (fun a => (a.shape, a.toList.map (·.bits.toNat))) =
    .ok ([2, 2, 3], [7, 7, 202, 7, 7, 203, 102, 7, 7, 103, 7, 7]) := by decide +kernel

example := C74_keeps_list_dimensions pf dir "T".toList { args with squeeze := false } ds shared.get tile [[1]] none [0] (.one 0) rfl
  ⟨selects.levs, selects.levLen, selects.region, selects.recs⟩ common
  (by show itrsOf dir "T".toList .all ≠ []; rw [iters]; simp) rfl (fun it hit => ⟨(all_files it hit).1, (all_files it hit).2.1⟩)

example : rdmds pf dir "T".toList { args with rec? := none, squeeze := false } = .error .valueError :=
  C74_all_records_raise pf dir "T".toList { args with rec? := none, squeeze := false } ds shared.get tile [[1]] none [0, 1] rfl (by decide)
    ⟨selects.levs, selects.levLen, selects.region, rfl⟩ common
    (by show itrsOf dir "T".toList .all ≠ []; rw [iters]; simp) rfl (by decide) (fun it hit => ⟨(all_files it hit).1, (all_files it hit).2.1⟩)

end ExIters

end SG
