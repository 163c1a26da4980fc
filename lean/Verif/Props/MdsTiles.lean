import Verif.Lemmas.MdsRead
import Verif.Props.MdsMeta
/-! # Reading tiled data with `rdmds` (C60, C69)

The specification says what files are on disk and what they hold (`Spec.TileFile`), what the arguments select (`Spec.Selects`) and which
element of which tile belongs at a position (`Spec.Covers`, `Spec.position`). -/

set_option linter.unusedSectionVars false
namespace SG
variable {F : Type}

/-! ## Specification -/

namespace Spec

/-- The meta file names of tiles, `fname.ddd.ddd.meta`. -/
def TileName (fname n : Text) : Prop :=
  ∃ a b c d e f : Char, (∀ x ∈ [a, b, c, d, e, f], x.isDigit = true) ∧ n = fname ++ ['.', a, b, c, '.', d, e, f, '.', 'm', 'e', 't', 'a']

/-- The meta files to be read: those of the tiles; if there are none, `fname.meta`. -/
def Found (d : MdsDir) (fname n : Text) : Prop :=
  n ∈ d.names ∧ (TileName fname n ∨ ((∀ m ∈ d.names, ¬ TileName fname m) ∧ n = fname ++ ['.', 'm', 'e', 't', 'a']))

/-- The entry `dimList`: for every axis, fastest first, its size, the first and the last index (from 1) of the tile. -/
def dimEntries : List Nat → List Nat → List Nat → List (Val F)
  | g :: G, s :: S, z :: Z => dimEntries G S Z ++ [.int g, .int (s + 1), .int (s + z)]
  | _, _, _ => []

/-- Entries that need not be the same in all meta files. -/
def ownKeys : List Text := ["dimList".toList, "timeInterval".toList, "timeStepNumber".toList, "map2glob".toList]

/-- What the meta file of a tile says.  `common` are the entries that all meta files share. -/
structure MetaSays (pf : Text → Py F) (text : Text) (ds : DataSet) (b : Box) (common : Text → Option (List (Val F))) : Prop where
  entries : ∃ es : Dict F, parsemeta pf text = .ok es ∧ es.get "dimList".toList = some (dimEntries ds.G (b.start ds) ds.Z) ∧
    es.get "map2glob".toList = none ∧ ∀ k, k ∉ ownKeys → es.get k = common k

/-- Common entries give precision and number of records; numbers among them are not NaN. -/
structure Common [PyFloat F] (ds : DataSet) (common : Text → Option (List (Val F))) : Prop where
  prec : common "dataprec".toList = some [.str (match ds.prec with | .f32 => "float32".toList | .f64 => "float64".toList)]
  nrec : common "nrecords".toList = some [.int ds.R]
  real : ∀ k vs x, common k = some vs → Val.flt x ∈ vs → PyFloat.le x x = true

/-- A tile: its position and its elements (record first). -/
structure MdsTile (F : Type) where
  box : Box
  elem : List Nat → F

/-- The files of a tile: meta file and data file are there, the tile is inside the global array, the meta file describes it, the data file
holds its elements in C order, one record after the other. -/
structure TileFile [F64 F] [F32 F] (pf : Text → Py F) (d : MdsDir) (e : Endian) (ds : DataSet) (common : Text → Option (List (Val F)))
    (n : Text) (t : MdsTile F) : Prop where
  fits : t.box.OK ds
  metaIn : n ∈ d.names
  says : MetaSays pf (d.text n) ds t.box common
  dataIn : n.take (n.length - 4) ++ "data".toList ∈ d.names
  data : d.data (n.take (n.length - 4) ++ "data".toList) = (indices (ds.R :: ds.Z)).flatMap fun i => itemBytes ds.prec e (t.elem i)

/-- Python index `z` on an axis of length `n` is `k`. -/
def Index (n : Nat) (z : Int) (k : Nat) : Prop := k < n ∧ (z = k ∨ z = (k : Int) - n)
/-- Bound `z` of a region is `k`. -/
def Bound (g : Nat) (z : Int) (k : Nat) : Prop := (0 ≤ z ∧ z = k) ∨ (z < 0 ∧ z + g = k)

def All2 {α β : Type} (r : α → β → Prop) : List α → List β → Prop
  | [], [] => True
  | a :: l, b :: m => r a b ∧ All2 r l m
  | _, _ => False

/-- What the arguments select: levels `L` (one list per level axis, none longer than the axis), the window `w`, records `K`. -/
structure Selects (args : RdArgs F) (ds : DataSet) (L : List (List Nat)) (w : Win) (K : List Nat) : Prop where
  levs : All2 (fun (x : Sel × Nat) l => l.length ≤ x.2 ∧ All2 (Index x.2) x.1.list l) (List.zip args.lev ds.gl) L
  levLen : args.lev.length = ds.gl.length
  region : match args.region, w with
    | none, none => True
    | some (x0, xe, y0, ye), some (a, b, c, d) => Bound ds.gx x0 a ∧ Bound ds.gx xe b ∧ Bound ds.gy y0 c ∧ Bound ds.gy ye d ∧ a ≤ b ∧ c ≤ d
    | _, _ => False
  recs : match args.rec? with
    | none => K = List.range ds.R
    | some s => All2 (Index ds.R) s.list K

/-- Position `p` is in the tile of sizes `Z` that starts at `S`. -/
def Covers : List Nat → List Nat → List Nat → Prop
  | s :: S, z :: Z, p :: ps => (s ≤ p ∧ p < s + z) ∧ Covers S Z ps
  | [], [], [] => True
  | _, _, _ => False

/-- Position relative to the start. -/
def within (S p : List Nat) : List Nat := List.zipWith (fun p s => p - s) p S

/-- The last two indices shifted. -/
def shift (oy ox : Nat) : List Nat → List Nat
  | [y, x] => [y + oy, x + ox]
  | a :: q => a :: shift oy ox q
  | [] => []

/-- The position in the global array that index `q` of the result stands for. -/
def position : List (List Nat) → Win → List Nat → List Nat
  | l :: L, w, i :: q => l.getD i 0 :: position L w q
  | _, none, q => q
  | _, some (ri0, _, rj0, _), q => shift rj0 ri0 q

/-- `v` is what belongs at position `p` of record `r`: the element of the only tile there, or `fill`. -/
def Belongs [F32 F] (d : MdsDir) (name : Text) (ds : DataSet) (tile : Text → MdsTile F) (fill : F) (r : Nat) (p : List Nat) (v : F) : Prop :=
  (∀ n, Found d name n → Covers ((tile n).box.start ds) ds.Z p →
    (∀ m, Found d name m → Covers ((tile m).box.start ds) ds.Z p → m = n) →
    v = rounded ds.prec ((tile n).elem (r :: within ((tile n).box.start ds) p))) ∧
  ((∀ n, Found d name n → ¬ Covers ((tile n).box.start ds) ds.Z p) → v = fill)

end Spec

/-! ## Files found -/

theorem isTileSuffix_iff {s : Text} : isTileSuffix s = true ↔ ∃ a b c d e f : Char, (∀ x ∈ [a, b, c, d, e, f], x.isDigit = true) ∧
    s = ['.', a, b, c, '.', d, e, f, '.', 'm', 'e', 't', 'a'] := by
  have hm : ".meta".toList = ['.', 'm', 'e', 't', 'a'] := rfl
  constructor
  · intro h
    unfold isTileSuffix digitsThen at h
    rw [hm] at h
    match s, h with
    | x0 :: a :: b :: c :: x1 :: d :: e :: f :: r, h =>
      simp at h
      obtain ⟨h0, ⟨ha, hb, hc⟩, h1, ⟨hd, he, hf⟩, hr⟩ := h
      refine ⟨a, b, c, d, e, f, ?_, ?_⟩
      · simp [ha, hb, hc, hd, he, hf]
      · rw [h0, h1, hr]
    | [], h => simp at h
    | [_], h => simp at h
    | [_, _], h => simp at h
    | [_, _, _], h => simp at h
    | [_, _, _, _], h => simp at h
    | [_, _, _, _, _], h => simp at h
    | [_, _, _, _, _, _], h => simp at h
    | [_, _, _, _, _, _, _], h => simp at h
  · rintro ⟨a, b, c, d, e, f, h, rfl⟩
    unfold isTileSuffix digitsThen
    rw [hm]
    simp at h
    simp [h]

theorem tileName_iff {fname n : Text} : (fname.isPrefixOf n && isTileSuffix (n.drop fname.length)) = true ↔ Spec.TileName fname n := by
  rw [Bool.and_eq_true, List.isPrefixOf_iff_prefix, isTileSuffix_iff]
  constructor
  · rintro ⟨⟨t, rfl⟩, a, b, c, d, e, f, h, ht⟩
    rw [List.drop_left] at ht
    exact ⟨a, b, c, d, e, f, h, by rw [ht]⟩
  · rintro ⟨a, b, c, d, e, f, h, rfl⟩
    exact ⟨⟨_, rfl⟩, a, b, c, d, e, f, h, by rw [List.drop_left]⟩

theorem mem_metafiles {d : MdsDir} {fname n : Text} : n ∈ d.metafiles fname ↔ Spec.Found d fname n := by
  have hm : ".meta".toList = ['.', 'm', 'e', 't', 'a'] := rfl
  have hfil : ∀ m, m ∈ d.names.filter (fun n => fname.isPrefixOf n && isTileSuffix (n.drop fname.length)) ↔
      m ∈ d.names ∧ Spec.TileName fname m := by
    intro m; rw [List.mem_filter, tileName_iff]
  unfold MdsDir.metafiles Spec.Found
  dsimp only
  rw [hm]
  by_cases hne : d.names.filter (fun n => fname.isPrefixOf n && isTileSuffix (n.drop fname.length)) ≠ []
  · rw [if_pos hne, hfil]
    constructor
    · exact fun h => ⟨h.1, .inl h.2⟩
    · rintro ⟨h1, h2 | ⟨h2, -⟩⟩
      · exact ⟨h1, h2⟩
      · obtain ⟨m, hm⟩ := List.exists_mem_of_ne_nil _ hne
        exact absurd ((hfil m).1 hm).2 (h2 m ((hfil m).1 hm).1)
  · rw [if_neg hne]
    have hno : ∀ m ∈ d.names, ¬ Spec.TileName fname m := by
      intro m hm ht
      have := (hfil m).2 ⟨hm, ht⟩
      rw [Decidable.not_not.1 hne] at this
      cases this
    constructor
    · intro h
      by_cases hin : fname ++ ['.', 'm', 'e', 't', 'a'] ∈ d.names
      · rw [if_pos hin] at h
        have := List.mem_singleton.1 h
        subst this
        exact ⟨hin, .inr ⟨hno, rfl⟩⟩
      · rw [if_neg hin] at h; cases h
    · rintro ⟨h1, h2 | ⟨-, h2⟩⟩
      · exact absurd h2 (hno n h1)
      · subst h2
        rw [if_pos h1]
        exact List.mem_singleton.2 rfl

/-! ## What meta files say -/

theorem every3_append {α : Type} (a b c : α) (l : List α) :
    every3 0 (a :: b :: c :: l) = a :: every3 0 l ∧ every3 1 (a :: b :: c :: l) = b :: every3 1 l ∧
    every3 2 (a :: b :: c :: l) = c :: every3 2 l := by
  refine ⟨?_, ?_, ?_⟩ <;> cases l <;> simp [every3]

theorem dimEntries_ints : ∀ {G S Z : List Nat}, S.length = G.length → Z.length = G.length → ∃ l : List Int,
    asInts (F := F) (Spec.dimEntries G S Z) = .ok l ∧ every3 2 l.reverse = ints G ∧ (every3 1 l.reverse).map (· - 1) = ints S ∧
      every3 0 l.reverse = ints (List.zipWith (· + ·) S Z)
  | [], [], [], _, _ => ⟨[], rfl, rfl, rfl, rfl⟩
  | g :: G, s :: S, z :: Z, h1, h2 => by
    obtain ⟨l, e1, e2, e3, e4⟩ := dimEntries_ints (G := G) (S := S) (Z := Z) (by simpa using h1) (by simpa using h2)
    refine ⟨l ++ [(g : Int), (s : Int) + 1, (s : Int) + z], ?_, ?_, ?_, ?_⟩
    · show asInts (Spec.dimEntries G S Z ++ [.int g, .int (s + 1), .int (s + z)]) = _
      unfold asInts at e1 ⊢
      rw [List.mapM_append, e1, Py.ok_bind]
      rfl
    all_goals
      rw [List.reverse_append]
      show _ = _
    · show every3 2 (((s : Int) + z) :: ((s : Int) + 1) :: (g : Int) :: l.reverse) = _
      rw [(every3_append _ _ _ _).2.2, e2]; rfl
    · show (every3 1 (((s : Int) + z) :: ((s : Int) + 1) :: (g : Int) :: l.reverse)).map (· - 1) = _
      rw [(every3_append _ _ _ _).2.1, List.map_cons, e3]
      show ((s : Int) + 1 - 1) :: _ = (s : Int) :: _
      rw [Int.add_sub_cancel]; rfl
    · show every3 0 (((s : Int) + z) :: ((s : Int) + 1) :: (g : Int) :: l.reverse) = _
      rw [(every3_append _ _ _ _).1, e4]
      show _ = (((s + z : Nat)) : Int) :: _
      rw [Int.natCast_add]; rfl
  | [], _ :: _, _, h1, _ => by simp at h1
  | [], [], _ :: _, _, h2 => by simp at h2
  | _ :: _, [], _, h1, _ => by simp at h1
  | _ :: _, _ :: _, [], _, h2 => by simp at h2

theorem zip_add {ds : DataSet} {b : Box} (hb : b.OK ds) : List.zipWith (· + ·) (b.start ds) ds.Z = b.stop ds := by
  have l1 := hb.mid.length
  have h1 : ∀ gl : List Nat, List.zipWith (· + ·) (List.replicate gl.length 0) gl = gl := by
    intro gl
    induction gl with
    | nil => rfl
    | cons g gl ih =>
      show (0 + g) :: List.zipWith (· + ·) (List.replicate gl.length 0) gl = g :: gl
      rw [ih, Nat.zero_add]
  unfold Box.start Box.stop DataSet.Z
  rw [List.zipWith_append (by simp [l1]), List.zipWith_append (by simp), h1]
  rfl

theorem start_length {ds : DataSet} {b : Box} (hb : b.OK ds) : (b.start ds).length = ds.G.length ∧ ds.Z.length = ds.G.length := by
  have l1 := hb.mid.length
  simp [Box.start, DataSet.G, DataSet.Z, l1]

/-! ### Dictionaries -/

theorem Dict.get_del {d : Dict F} {k k' : Text} : (d.del k).get k' = if k' = k then none else d.get k' := by
  unfold Dict.del Dict.get
  rw [List.find?_filter]
  by_cases h : k' = k
  · rw [if_pos h, List.find?_eq_none.2]
    · rfl
    · intro e _
      simp [h]
  · rw [if_neg h]
    congr 1
    induction d with
    | nil => rfl
    | cons e d ih =>
      rw [List.find?_cons, List.find?_cons, ih]
      by_cases he : e.1 = k'
      · simp [he, h]
      · simp [he]

theorem Dict.get_put {d : Dict F} {k k' : Text} {v : List (Val F)} : (d.put k v).get k' = if k' = k then some v else d.get k' := by
  have hd := Dict.get_del (d := d) (k := k) (k' := k')
  unfold Dict.put Dict.get at *
  rw [List.find?_append, Option.map_or, hd]
  by_cases h : k' = k
  · rw [if_pos h, if_pos h]
    show (Option.map _ (List.find? _ [(k, v)])) = _
    rw [List.find?_cons_of_pos (by simp [h])]; rfl
  · rw [if_neg h, if_neg h, List.find?_cons_of_neg (by simpa using fun e => h e.symm)]
    show (Option.or _ (Option.map _ (List.find? _ []))) = _
    rw [List.find?_nil]
    show Option.or _ none = _
    rw [Option.or_none]

def Dict.Ok (d : Dict F) : Prop := (d.map (·.1)).Nodup

theorem Dict.Ok.del {d : Dict F} (h : d.Ok) (k : Text) : (d.del k).Ok := by
  unfold Dict.Ok Dict.del
  exact h.sublist ((List.filter_sublist).map _)

theorem Dict.Ok.put {d : Dict F} (h : d.Ok) (k : Text) (v : List (Val F)) : (d.put k v).Ok := by
  have h1 := h.del k
  unfold Dict.put
  unfold Dict.Ok at *
  rw [List.map_append, List.nodup_append]
  refine ⟨h1, by simp, ?_⟩
  intro a ha b hb hab
  have hb : b = k := by simpa using hb
  obtain ⟨e, he, rfl⟩ := List.mem_map.1 ha
  have := (List.mem_filter.1 he).2
  simp [hab, hb] at this

theorem Dict.get_mem {d : Dict F} (h : d.Ok) {e : Text × List (Val F)} (he : e ∈ d) : d.get e.1 = some e.2 := by
  induction d with
  | nil => cases he
  | cons x d ih =>
    unfold Dict.Ok at h
    rw [List.map_cons, List.nodup_cons] at h
    unfold Dict.get
    rcases List.mem_cons.1 he with rfl | hm
    · rw [List.find?_cons_of_pos (by simp)]; rfl
    · have : x.1 ≠ e.1 := fun hx => h.1 (hx ▸ List.mem_map.2 ⟨e, hm, rfl⟩)
      rw [List.find?_cons_of_neg (by simpa using this)]
      exact ih h.2 hm

theorem Dict.mem_of_get {d : Dict F} {k : Text} {v : List (Val F)} (h : d.get k = some v) : (k, v) ∈ d := by
  unfold Dict.get at h
  cases hf : d.find? (fun e => e.1 = k) with
  | none => rw [hf] at h; cases h
  | some e =>
    rw [hf] at h
    injection h with h
    have h1 := List.find?_some hf
    have h2 := List.mem_of_find?_eq_some hf
    have h1 : e.1 = k := by simpa using h1
    have : e = (k, v) := by rw [← h1, ← h]
    rw [← this]; exact h2

theorem nodup_length_le {α : Type} [DecidableEq α] : ∀ {l m : List α}, l.Nodup → (∀ x ∈ l, x ∈ m) → l.length ≤ m.length
  | [], _, _, _ => Nat.zero_le _
  | a :: l, m, hn, h => by
    rw [List.nodup_cons] at hn
    have ha := h a (by simp)
    have := nodup_length_le (l := l) (m := m.erase a) hn.2 (fun x hx => by
      have hxa : x ≠ a := fun e => hn.1 (e ▸ hx)
      exact (List.mem_erase_of_ne hxa).2 (h x (by simp [hx])))
    rw [List.length_erase_of_mem ha] at this
    have hpos := List.length_pos_of_mem ha
    rw [List.length_cons]; omega

theorem Dict.same_of_get [PyFloat F] {d e : Dict F} (hd : d.Ok) (he : e.Ok) (h : ∀ k, d.get k = e.get k)
    (hreal : ∀ k vs x, d.get k = some vs → Val.flt x ∈ vs → PyFloat.le x x = true) : d.same e = true := by
  have hsub : ∀ {d e : Dict F}, d.Ok → (∀ k, d.get k = e.get k) → ∀ k ∈ d.map (·.1), k ∈ e.map (·.1) := by
    intro d e hd h k hk
    obtain ⟨x, hx, rfl⟩ := List.mem_map.1 hk
    have := Dict.get_mem hd hx
    rw [h] at this
    exact List.mem_map.2 ⟨_, Dict.mem_of_get this, rfl⟩
  have hlen : d.length = e.length := by
    apply Nat.le_antisymm
    · have := nodup_length_le hd (hsub hd h)
      simpa using this
    · have := nodup_length_le he (hsub he (fun k => (h k).symm))
      simpa using this
  unfold Dict.same
  rw [Bool.and_eq_true, decide_eq_true_eq, List.all_eq_true]
  refine ⟨hlen, ?_⟩
  intro x hx
  have hg := Dict.get_mem hd hx
  rw [← h, hg]
  show sameVals x.2 x.2 = true
  have hr := hreal x.1 x.2
  have key : ∀ l : List (Val F), (∀ y, Val.flt y ∈ l → PyFloat.le y y = true) → sameVals l l = true := by
    intro l
    induction l with
    | nil => intro _; rfl
    | cons a l ih =>
      intro hl
      show (a.same a && sameVals l l) = true
      rw [ih (fun y hy => hl y (by simp [hy])), Bool.and_true]
      cases a with
      | int z => simp [Val.same]
      | str s => simp [Val.same]
      | flt y => simp [Val.same, hl y (by simp)]
  exact key x.2 (fun y hy => hr y hg hy)

theorem parseGo_ok (pf : Text → Py F) : ∀ (ls : List Text) (st : Option (Text × Char × Text)) (d d' : Dict F), d.Ok →
    parseGo pf st d ls = .ok d' → d'.Ok
  | [], none, d, d', hd, h => by
    have : d = d' := by injection h
    exact this ▸ hd
  | [], some _, d, d', hd, h => by cases h
  | l :: ls, none, d, d', hd, h => by
    unfold parseGo at h
    dsimp only at h
    split at h
    · exact parseGo_ok pf ls _ _ _ hd h
    · split at h
      · cases h
      · split at h
        · cases h
        · split at h
          · cases h
          · split at h
            · obtain ⟨vals, -, h⟩ := bind_ok_inv h
              exact parseGo_ok pf ls _ _ _ (hd.put _ _) h
            · exact parseGo_ok pf ls _ _ _ hd h
  | l :: ls, some (key, cl, v), d, d', hd, h => by
    unfold parseGo at h
    dsimp only at h
    split at h
    · obtain ⟨vals, -, h⟩ := bind_ok_inv h
      exact parseGo_ok pf ls _ _ _ (hd.put _ _) h
    · exact parseGo_ok pf ls _ _ _ hd h

theorem parsemeta_ok {pf : Text → Py F} {t : Text} {d : Dict F} (h : parsemeta pf t = .ok d) : d.Ok :=
  parseGo_ok pf _ _ _ _ (by unfold Dict.Ok; exact List.nodup_nil) h

/-! ### Tiles -/

/-- The entries of a meta file that are compared. -/
def restOf (pf : Text → Py F) (d : MdsDir) (n : Text) : Dict F := match readmeta pf (d.text n) with
  | .ok m => m.rest
  | .error _ => []

theorem tileAt_of [PyFloat F] [F64 F] [F32 F] {pf : Text → Py F} {d : MdsDir} {e : Endian} {ds : DataSet}
    {common : Text → Option (List (Val F))} (hc : Spec.Common ds common) {n : Text} {t : Spec.MdsTile F}
    (h : Spec.TileFile pf d e ds common n t) :
    TileAt pf d ds n t.box (restOf pf d n) ∧ (restOf pf d n).Ok ∧ ∀ k, (restOf pf d n).get k =
      if k = "dimList".toList then some ((ints ds.G).reverse.map .int) else if k ∈ Spec.ownKeys then none else common k := by
  obtain ⟨es, h1, h2, h3, h4⟩ := h.says.entries
  obtain ⟨l1, l2⟩ := start_length h.fits
  obtain ⟨l, e1, e2, e3, e4⟩ := dimEntries_ints (F := F) l1 l2
  rw [zip_add h.fits] at e4
  have hread : readmeta pf (d.text n) = .ok (tileMeta ds t.box
      (((((es.del "dimList".toList).del "timeInterval".toList).del "timeStepNumber".toList).del "map2glob".toList).put "dimList".toList
        ((ints ds.G).reverse.map .int))) := by
    unfold readmeta
    rw [h1, Py.ok_bind, h2]
    dsimp only
    rw [e1, Py.ok_bind, h3, e2, e3, e4]
    rfl
  have hrest : restOf pf d n = ((((es.del "dimList".toList).del "timeInterval".toList).del "timeStepNumber".toList).del "map2glob".toList).put
      "dimList".toList ((ints ds.G).reverse.map .int) := by
    unfold restOf; rw [hread]; rfl
  have hget : ∀ k, (restOf pf d n).get k =
      if k = "dimList".toList then some ((ints ds.G).reverse.map .int) else if k ∈ Spec.ownKeys then none else common k := by
    intro k
    rw [hrest, Dict.get_put]
    by_cases hk : k = "dimList".toList
    · rw [if_pos hk, if_pos hk]
    · rw [if_neg hk, if_neg hk, Dict.get_del, Dict.get_del, Dict.get_del, Dict.get_del]
      by_cases ho : k ∈ Spec.ownKeys
      · rw [if_pos ho]
        unfold Spec.ownKeys at ho
        simp only [List.mem_cons, List.not_mem_nil, or_false] at ho
        rcases ho with ho | ho | ho | ho
        · exact absurd ho hk
        · by_cases a : k = "map2glob".toList
          · rw [if_pos a]
          · rw [if_neg a]
            by_cases b : k = "timeStepNumber".toList
            · rw [if_pos b]
            · rw [if_neg b, if_pos ho]
        · by_cases a : k = "map2glob".toList
          · rw [if_pos a]
          · rw [if_neg a, if_pos ho]
        · rw [if_pos ho]
      · rw [if_neg ho]
        have ho' := ho
        unfold Spec.ownKeys at ho'
        simp only [List.mem_cons, List.not_mem_nil, or_false, not_or] at ho'
        rw [if_neg ho'.2.2.2, if_neg ho'.2.2.1, if_neg ho'.2.1, if_neg hk, h4 k ho]
  refine ⟨⟨h.metaIn, by rw [hread, hrest], h.dataIn, ?_, h.fits, ?_⟩, ?_, hget⟩
  · rw [show dataName n = n.take (n.length - 4) ++ "data".toList from rfl, h.data]
    rw [length_flatMap_const _ _ ds.prec.size (fun x _ => itemBytes_length _ _ _), indices_length]
    rfl
  · refine ⟨?_, ?_⟩
    · rw [hget, if_neg (by decide +kernel), if_neg (by decide +kernel), hc.prec]
      cases ds.prec <;> rfl
    · rw [hget, if_neg (by decide +kernel), if_neg (by decide +kernel), hc.nrec]
  · rw [hrest]
    exact ((((parsemeta_ok h1).del _).del _).del _).del _ |>.put _ _

theorem rest_same [PyFloat F] [F64 F] [F32 F] {pf : Text → Py F} {d : MdsDir} {e : Endian} {ds : DataSet}
    {common : Text → Option (List (Val F))} (hc : Spec.Common ds common) {n n' : Text} {t t' : Spec.MdsTile F}
    (h : Spec.TileFile pf d e ds common n t) (h' : Spec.TileFile pf d e ds common n' t') :
    (restOf pf d n).same (restOf pf d n') = true := by
  obtain ⟨-, a1, a2⟩ := tileAt_of hc h
  obtain ⟨-, b1, b2⟩ := tileAt_of hc h'
  apply Dict.same_of_get a1 b1 (fun k => by rw [a2, b2])
  intro k vs x hk hx
  rw [a2] at hk
  by_cases h1 : k = "dimList".toList
  · rw [if_pos h1] at hk
    injection hk with hk
    rw [← hk] at hx
    obtain ⟨z, -, hz⟩ := List.mem_map.1 hx
    cases hz
  · rw [if_neg h1] at hk
    by_cases h2 : k ∈ Spec.ownKeys
    · rw [if_pos h2] at hk; cases hk
    · rw [if_neg h2] at hk
      exact hc.real k vs x hk hx

theorem tileVal_eq [PyFloat F] [F64 F] [F32 F] [LawfulF64 F] {pf : Text → Py F} {d : MdsDir} {e : Endian} {ds : DataSet}
    {common : Text → Option (List (Val F))} {n : Text} {t : Spec.MdsTile F} (h : Spec.TileFile pf d e ds common n t) {r : Nat} {s : List Nat}
    (hr : r < ds.R) (hs : InShape ds.Z s) :
    tileVal e ds (d.data (dataName n)) r s = Spec.rounded ds.prec (t.elem (r :: s)) := by
  unfold tileVal
  rw [show dataName n = n.take (n.length - 4) ++ "data".toList from rfl, h.data]
  have e1 : (indices (ds.R :: ds.Z)).flatMap (fun i => itemBytes ds.prec e (t.elem i)) =
      ((indices (ds.R :: ds.Z)).map t.elem).flatMap (itemBytes ds.prec e) := by rw [List.flatMap_map]
  rw [e1, itemsOf_bytes, List.map_map, List.getD_eq_getElem?_getD, List.getElem?_map,
    indices_ravel (show InShape (ds.R :: ds.Z) (r :: s) from ⟨hr, hs⟩)]
  rfl

/-! ### Selections -/

theorem pyIdx_index {n : Nat} {z : Int} {k : Nat} (h : Spec.Index n z k) : pyIdx n z = some k := by
  obtain ⟨hk, hz⟩ := h
  unfold pyIdx
  rcases hz with hz | hz
  · rw [if_pos (by omega), if_pos (by omega)]; congr 1; omega
  · rw [if_neg (by omega), if_pos (by omega)]; congr 1; omega

theorem mapM_index {n : Nat} {f : Int → Py Nat} (hf : ∀ z k, pyIdx n z = some k → f z = .ok k) :
    ∀ {l : List Int} {ks : List Nat}, Spec.All2 (Spec.Index n) l ks → l.mapM f = .ok ks ∧ ∀ k ∈ ks, k < n
  | [], [], _ => ⟨rfl, by simp⟩
  | z :: l, k :: ks, h => by
    obtain ⟨h1, h2⟩ := mapM_index hf h.2
    refine ⟨?_, ?_⟩
    · rw [List.mapM_cons, hf z k (pyIdx_index h.1), Py.ok_bind, h1]
      rfl
    · intro x hx
      rcases List.mem_cons.1 hx with rfl | hx
      · exact h.1.1
      · exact h2 x hx
  | [], _ :: _, h => h.elim
  | _ :: _, [], h => h.elim

theorem levs_of : ∀ {lev : List Sel} {gl : List Nat} {L : List (List Nat)}, lev.length = gl.length →
    Spec.All2 (fun (x : Sel × Nat) l => l.length ≤ x.2 ∧ Spec.All2 (Spec.Index x.2) x.1.list l) (List.zip lev gl) L →
    levAxes (lev.map Sel.list) gl = .ok L ∧ LevOK gl L
  | [], [], [], _, _ => ⟨rfl, trivial⟩
  | [], [], _ :: _, _, h => h.elim
  | [], _ :: _, _, h, _ => by simp at h
  | _ :: _, [], _, h, _ => by simp at h
  | s :: lev, g :: gl, [], _, h => h.elim
  | s :: lev, g :: gl, l :: L, hl, h => by
    obtain ⟨h1, h2⟩ := levs_of (by simpa using hl) h.2
    have h3 := fun f hf => mapM_index (n := g) (f := f) hf h.1.2
    refine ⟨?_, ⟨h.1.1, (h3 (fun z => match pyIdx g z with | some i => .ok i | none => .error .indexError)
      (fun z k e => by rw [e])).2⟩, h2⟩
    rw [List.map_cons]
    unfold levAxes
    rw [(h3 _ (fun z k e => by rw [e])).1, Py.ok_bind, h1]
    rfl

theorem reads_of {args : RdArgs F} {ds : DataSet} {L : List (List Nat)} {w : Win} {K : List Nat} (h : Spec.Selects args ds L w K) :
    Reads args ds L w K := by
  obtain ⟨h1, h2⟩ := levs_of h.levLen h.levs
  have hrec : (recList args.rec? ds.R).map (fun z : Int => if z < 0 then z + (ds.R : Int) else z) = ints K ∧ ∀ k ∈ K, k < ds.R := by
    have hr := h.recs
    cases hrec : args.rec? with
    | none =>
      rw [hrec] at hr
      have hr : K = List.range ds.R := hr
      subst hr
      refine ⟨?_, fun k hk => List.mem_range.1 hk⟩
      show (ints (List.range ds.R)).map _ = _
      unfold ints
      rw [List.map_map]
      apply List.map_congr_left
      intro n _
      show (if (n : Int) < 0 then (n : Int) + (ds.R : Int) else (n : Int)) = (n : Int)
      rw [if_neg (by omega)]
    | some s =>
      rw [hrec] at hr
      have hr : Spec.All2 (Spec.Index ds.R) s.list K := hr
      show s.list.map _ = _ ∧ _
      generalize s.list = l at hr
      have key : ∀ {l : List Int} {K : List Nat}, Spec.All2 (Spec.Index ds.R) l K →
          l.map (fun z : Int => if z < 0 then z + (ds.R : Int) else z) = ints K ∧ ∀ k ∈ K, k < ds.R := by
        intro l
        induction l with
        | nil => intro K h; cases K with
          | nil => exact ⟨rfl, by simp⟩
          | cons => exact h.elim
        | cons z l ih => intro K h; cases K with
          | nil => exact h.elim
          | cons k K =>
            obtain ⟨a, b⟩ := ih h.2
            obtain ⟨hk, hz⟩ := h.1
            refine ⟨?_, ?_⟩
            · rw [List.map_cons, a]
              show _ = (k : Int) :: ints K
              congr 1
              split <;> omega
            · intro x hx
              rcases List.mem_cons.1 hx with rfl | hx
              · exact hk
              · exact b x hx
      exact key hr
  refine ⟨h1, h.levLen, h2, ?_, hrec.1, hrec.2⟩
  have hreg := h.region
  unfold IsWin
  cases hr : args.region with
  | none =>
    rw [hr] at hreg
    cases w with
    | none => trivial
    | some w => exact hreg.elim
  | some r =>
    rw [hr] at hreg
    cases w with
    | none => exact hreg.elim
    | some w =>
      obtain ⟨x0, xe, y0, ye⟩ := r
      obtain ⟨a, b, c, e⟩ := w
      have hreg : Spec.Bound ds.gx x0 a ∧ Spec.Bound ds.gx xe b ∧ Spec.Bound ds.gy y0 c ∧ Spec.Bound ds.gy ye e ∧ a ≤ b ∧ c ≤ e := hreg
      obtain ⟨g1, g2, g3, g4, g5, g6⟩ := hreg
      have hb : ∀ {g : Nat} {z : Int} {k : Nat}, Spec.Bound g z k → (if z < 0 then z + (g : Int) else z) = (k : Int) := by
        intro g z k h
        rcases h with ⟨h0, h⟩ | ⟨h0, h⟩
        · rw [if_neg (by omega), h]
        · rw [if_pos h0, h]
      refine ⟨?_, g5, g6⟩
      show ((if x0 < 0 then x0 + (ds.gx : Int) else x0), (if xe < 0 then xe + (ds.gx : Int) else xe),
        (if y0 < 0 then y0 + (ds.gy : Int) else y0), (if ye < 0 then ye + (ds.gy : Int) else ye)) = _
      rw [hb g1, hb g2, hb g3, hb g4]

/-! ### Positions -/

theorem inBox_gen {w : Win} {gy gx sy sx zy zx : Nat} {aY aX : Axis}
    (hlast : ∀ q, InShape (lastDims gy gx w) q → (InBox [aY, aX] q ↔ Spec.Covers [sy, sx] [zy, zx] (Spec.position [] w q)) ∧
      srcIdx [aY, aX] q = Spec.within [sy, sx] (Spec.position [] w q)) :
    ∀ {gm sm zm q : List Nat}, Fits gm sm zm → InShape (gm ++ lastDims gy gx w) q →
      (InBox (plains gm sm zm ++ [aY, aX]) q ↔ Spec.Covers (sm ++ [sy, sx]) (zm ++ [zy, zx]) (Spec.position [] w q)) ∧
      srcIdx (plains gm sm zm ++ [aY, aX]) q = Spec.within (sm ++ [sy, sx]) (Spec.position [] w q)
  | [], [], [], q, _, hq => hlast q hq
  | g :: gm, s :: sm, z :: zm, i :: q, hf, hq => by
    obtain ⟨h1, h2⟩ := inBox_gen hlast hf.2 hq.2
    have hpos : Spec.position [] w (i :: q) = i :: Spec.position [] w q := by
      cases w with
      | none => rfl
      | some w =>
        obtain ⟨ri0, rie, rj0, rje⟩ := w
        have hlen := InShape.length hq.2
        match q, hlen with
        | a :: b :: q, _ => rfl
        | [], h => simp [lastDims] at h
        | [a], h => simp [lastDims] at h
    rw [hpos]
    constructor
    · show (_ ∧ _) ↔ (_ ∧ _)
      exact and_congr Iff.rfl h1
    · show (i - s) :: _ = (i - s) :: _
      exact congrArg _ h2
  | [], [], _ :: _, _, h, _ => h.elim
  | [], _ :: _, _, _, h, _ => h.elim
  | _ :: _, [], _, _, h, _ => h.elim
  | _ :: _, _ :: _, [], _, h, _ => h.elim
  | _ :: _, _ :: _, _ :: _, [], _, h => h.elim

theorem inBox_levs {w : Win} {dims S Z : List Nat} {axs : List Axis}
    (hrest : ∀ q, InShape dims q → (InBox axs q ↔ Spec.Covers S Z (Spec.position [] w q)) ∧
      srcIdx axs q = Spec.within S (Spec.position [] w q)) :
    ∀ {gl : List Nat} {L : List (List Nat)} {q : List Nat}, LevOK gl L → InShape (L.map List.length ++ dims) q →
      (InBox (List.zipWith levAxis gl L ++ axs) q ↔ Spec.Covers (List.replicate gl.length 0 ++ S) (gl ++ Z) (Spec.position L w q)) ∧
      srcIdx (List.zipWith levAxis gl L ++ axs) q = Spec.within (List.replicate gl.length 0 ++ S) (Spec.position L w q)
  | [], [], q, _, hq => hrest q hq
  | g :: gl, l :: L, i :: q, hL, hq => by
    obtain ⟨h1, h2⟩ := inBox_levs hrest hL.2 hq.2
    constructor
    · show (_ ∧ _) ↔ (_ ∧ _)
      exact and_congr Iff.rfl h1
    · show (l.getD i 0 - 0) :: _ = (l.getD i 0 - 0) :: _
      exact congrArg _ h2
  | [], _ :: _, _, h, _ => h.elim
  | _ :: _, [], _, h, _ => h.elim
  | _ :: _, _ :: _, [], _, h => h.elim

theorem inBox_iff {ds : DataSet} {b : Box} {L : List (List Nat)} {w : Win} (hb : b.OK ds) (hL : LevOK ds.gl L) {q : List Nat}
    (hq : InShape (outDims ds L w) q) :
    (InBox (axesOf ds b L w) q ↔ Spec.Covers (b.start ds) ds.Z (Spec.position L w q)) ∧
      srcIdx (axesOf ds b L w) q = Spec.within (b.start ds) (Spec.position L w q) := by
  have hlast : ∀ q, InShape (lastDims ds.gy ds.gx w) q →
      (InBox [axisY ds b w, axisX ds b w] q ↔ Spec.Covers [b.sy, b.sx] [ds.zy, ds.zx] (Spec.position [] w q)) ∧
      srcIdx [axisY ds b w, axisX ds b w] q = Spec.within [b.sy, b.sx] (Spec.position [] w q) := by
    intro q hq
    cases w with
    | none =>
      match q, hq with
      | [y, x], hq => exact ⟨Iff.rfl, rfl⟩
      | [], h => exact h.elim
      | [y], h => exact h.2.elim
      | _ :: _ :: _ :: _, h => exact h.2.2.elim
    | some w =>
      obtain ⟨ri0, rie, rj0, rje⟩ := w
      match q, hq with
      | [y, x], hq => exact ⟨Iff.rfl, rfl⟩
      | [], h => exact h.elim
      | [y], h => exact h.2.elim
      | _ :: _ :: _ :: _, h => exact h.2.2.elim
  unfold axesOf Box.start DataSet.Z
  unfold outDims at hq
  rw [List.append_assoc] at hq
  rw [List.append_assoc, List.append_assoc, List.append_assoc]
  exact inBox_levs (fun q hq => inBox_gen hlast hb.mid hq) hL hq

theorem paint_belongs [PyFloat F] [F64 F] [F32 F] [LawfulF64 F] {pf : Text → Py F} {d : MdsDir} {args : RdArgs F} {ds : DataSet}
    {common : Text → Option (List (Val F))} {tile : Text → Spec.MdsTile F} {name : Text} {L : List (List Nat)} {w : Win} (hL : LevOK ds.gl L)
    (hfiles : ∀ n, Spec.Found d name n → Spec.TileFile pf d args.endian ds common n (tile n)) {r : Nat} {q : List Nat} (hr : r < ds.R)
    (hq : InShape (outDims ds L w) q) :
    Spec.Belongs d name ds tile args.fill r (Spec.position L w q)
      (paint d args ds L w r q ((d.metafiles name).map fun n => (n, (tile n).box)) args.fill) := by
  have hmem : ∀ n, n ∈ d.metafiles name ↔ Spec.Found d name n := fun n => mem_metafiles
  generalize d.metafiles name = files at hmem
  unfold paint
  rw [List.foldl_map]
  dsimp only
  constructor
  · intro n hn hcov huniq
    have key : ∀ (l : List Text) (x : F), (∀ m ∈ l, Spec.Found d name m) → (n ∈ l ∨ x = Spec.rounded ds.prec ((tile n).elem (r :: Spec.within ((tile n).box.start ds) (Spec.position L w q)))) →
        l.foldl (fun x m => if InBox (axesOf ds (tile m).box L w) q then
          tileVal args.endian ds (d.data (dataName m)) r (srcIdx (axesOf ds (tile m).box L w) q) else x) x =
        Spec.rounded ds.prec ((tile n).elem (r :: Spec.within ((tile n).box.start ds) (Spec.position L w q))) := by
      intro l
      induction l with
      | nil =>
        intro x _ h
        rcases h with h | h
        · cases h
        · exact h
      | cons m l ih =>
        intro x hl h
        rw [List.foldl_cons]
        apply ih _ (fun m hm => hl m (by simp [hm]))
        have hm := hl m (by simp)
        have hf := hfiles m hm
        obtain ⟨i1, i2⟩ := inBox_iff hf.fits hL hq
        by_cases hbox : InBox (axesOf ds (tile m).box L w) q
        · right
          rw [if_pos hbox]
          have : m = n := huniq m hm (i1.1 hbox)
          subst this
          rw [tileVal_eq hf hr (srcIdx_inShape hf.fits hL hbox), i2]
        · rw [if_neg hbox]
          rcases h with h | h
          · rcases List.mem_cons.1 h with rfl | h
            · exact absurd (i1.2 hcov) hbox
            · exact .inl h
          · exact .inr h
    exact key files args.fill (fun m hm => (hmem m).1 hm) (.inl ((hmem n).2 hn))
  · intro hno
    have key : ∀ (l : List Text) (x : F), (∀ m ∈ l, Spec.Found d name m) →
        l.foldl (fun x m => if InBox (axesOf ds (tile m).box L w) q then
          tileVal args.endian ds (d.data (dataName m)) r (srcIdx (axesOf ds (tile m).box L w) q) else x) x = x := by
      intro l
      induction l with
      | nil => intro x _; rfl
      | cons m l ih =>
        intro x hl
        have hm := hl m (by simp)
        have hbox : ¬ InBox (axesOf ds (tile m).box L w) q := fun h => hno m hm ((inBox_iff (hfiles m hm).fits hL hq).1.1 h)
        rw [List.foldl_cons, if_neg hbox]
        exact ih _ (fun m hm => hl m (by simp [hm]))
    exact key files args.fill (fun m hm => (hmem m).1 hm)

/-! ## Any arguments -/

/-- Everything is selected at least once. -/
def Spec.Something (its : List (Option Nat)) (L : List (List Nat)) (K : List Nat) : Prop := its ≠ [] ∧ K ≠ [] ∧ ∀ l ∈ L, l ≠ []

theorem rdmds_reads [PyFloat F] [F64 F] [F32 F] [LawfulF64 F] {pf : Text → Py F} {d : MdsDir} {fname : Text} {args : RdArgs F} {ds : DataSet}
    {common : Text → Option (List (Val F))} {tile : Text → Spec.MdsTile F} {L : List (List Nat)} {w : Win} {K : List Nat}
    (hsel : Spec.Selects args ds L w K) (hc : Spec.Common ds common) (hits : itrsOf d fname args.itrs ≠ [])
    (hfiles : ∀ it ∈ itrsOf d fname args.itrs, (∃ n, Spec.Found d (nameOf fname it) n) ∧
      ∀ n, Spec.Found d (nameOf fname it) n → Spec.TileFile pf d args.endian ds common n (tile n)) :
    ∃ full : NdArr F, full.shape = (itrsOf d fname args.itrs).length :: K.length :: outDims ds L w ∧
      (∀ (i k : Nat) (q : List Nat) (it : Option Nat) (r : Nat), (itrsOf d fname args.itrs)[i]? = some it → K[k]? = some r →
        InShape (outDims ds L w) q →
        Spec.Belongs d (nameOf fname it) ds tile args.fill r (Spec.position L w q) (full.get (i :: k :: q))) ∧
      rdmds pf d fname args = full.reshape Arith.zero
        (squeezed args ((itrsOf d fname args.itrs).length :: K.length :: L.map List.length) ++ (ds.gm ++ lastDims ds.gy ds.gx w)) := by
  have hr := reads_of hsel
  obtain ⟨full, h1, h2, h3⟩ := rdmds_eq (pf := pf) (d := d) (fname := fname) hr (rest := restOf pf d) (box := fun n => (tile n).box) hits
    (by
      intro it hit
      obtain ⟨⟨n, hn⟩, ht⟩ := hfiles it hit
      refine ⟨fun h0 => ?_, fun n hn => (tileAt_of hc (ht n (mem_metafiles.1 hn))).1⟩
      have := mem_metafiles.2 hn
      rw [h0] at this; cases this)
    (by
      intro it hit n hn it' hit' n' hn'
      exact rest_same hc ((hfiles it hit).2 n (mem_metafiles.1 hn)) ((hfiles it' hit').2 n' (mem_metafiles.1 hn')))
  refine ⟨full, h1, ?_, ?_⟩
  · intro i k q it r hi hk hq
    rw [h2 i k q it r hi hk hq]
    exact paint_belongs hr.levOK (hfiles it (List.mem_of_getElem? hi)).2 (hr.recLt r (List.mem_of_getElem? hk)) hq
  · rw [h3, outDims_drop rfl]

theorem prodL_append : ∀ (s t : List Nat), prodL (s ++ t) = prodL s * prodL t
  | [], t => by simp [prodL]
  | n :: s, t => by
    show n * prodL (s ++ t) = n * prodL s * prodL t
    rw [prodL_append s t, Nat.mul_assoc]

theorem prodL_filter : ∀ (s : List Nat), (∀ n ∈ s, 0 < n) → prodL (s.filter (1 < ·)) = prodL s
  | [], _ => rfl
  | n :: s, h => by
    have ih := prodL_filter s (fun m hm => h m (by simp [hm]))
    have hn := h n (by simp)
    rw [List.filter_cons]
    by_cases h1 : 1 < n
    · rw [if_pos (by simpa using h1)]
      show n * _ = n * _
      rw [ih]
    · rw [if_neg (by simpa using h1), ih]
      have : n = 1 := by omega
      rw [this]
      show _ = 1 * _
      rw [Nat.one_mul]

/-- With `squeeze=True` (the default) something is returned. -/
theorem rdmds_squeezed [PyFloat F] [F64 F] [F32 F] [LawfulF64 F] {pf : Text → Py F} {d : MdsDir} {fname : Text} {args : RdArgs F} {ds : DataSet}
    {common : Text → Option (List (Val F))} {tile : Text → Spec.MdsTile F} {L : List (List Nat)} {w : Win} {K : List Nat}
    (hsel : Spec.Selects args ds L w K) (hc : Spec.Common ds common) (hsome : Spec.Something (itrsOf d fname args.itrs) L K)
    (hsq : args.squeeze = true)
    (hfiles : ∀ it ∈ itrsOf d fname args.itrs, (∃ n, Spec.Found d (nameOf fname it) n) ∧
      ∀ n, Spec.Found d (nameOf fname it) n → Spec.TileFile pf d args.endian ds common n (tile n)) :
    ∃ full a : NdArr F, rdmds pf d fname args = .ok a ∧
      a.shape = ((itrsOf d fname args.itrs).length :: K.length :: L.map List.length).filter (1 < ·) ++ (ds.gm ++ lastDims ds.gy ds.gx w) ∧
      a = NdArr.ofList Arith.zero a.shape full.toList ∧
      full.shape = (itrsOf d fname args.itrs).length :: K.length :: outDims ds L w ∧
      ∀ (i k : Nat) (q : List Nat) (it : Option Nat) (r : Nat), (itrsOf d fname args.itrs)[i]? = some it → K[k]? = some r →
        InShape (outDims ds L w) q →
        Spec.Belongs d (nameOf fname it) ds tile args.fill r (Spec.position L w q) (full.get (i :: k :: q)) := by
  obtain ⟨full, h1, h2, h3⟩ := rdmds_reads hsel hc hsome.1 hfiles
  have hs : squeezed args ((itrsOf d fname args.itrs).length :: K.length :: L.map List.length) =
      ((itrsOf d fname args.itrs).length :: K.length :: L.map List.length).filter (1 < ·) := if_pos hsq
  rw [hs] at h3
  have hprod : prodL (((itrsOf d fname args.itrs).length :: K.length :: L.map List.length).filter (1 < ·) ++ (ds.gm ++ lastDims ds.gy ds.gx w)) =
      prodL full.shape := by
    rw [h1, prodL_append, prodL_filter]
    · unfold outDims
      rw [List.append_assoc, ← prodL_append]
      rfl
    · intro n hn
      rcases List.mem_cons.1 hn with rfl | hn
      · exact List.length_pos_iff.2 hsome.1
      · rcases List.mem_cons.1 hn with rfl | hn
        · exact List.length_pos_iff.2 hsome.2.1
        · obtain ⟨l, hl, rfl⟩ := List.mem_map.1 hn
          exact List.length_pos_iff.2 (hsome.2.2 l hl)
  unfold NdArr.reshape at h3
  rw [if_pos hprod] at h3
  exact ⟨full, _, h3, rfl, rfl, h1, h2⟩

/-! ## Tiles at their positions (C60) -/

/-- C60: all tiles of a data set are read without options. -/
theorem C60_tile_assembly [PyFloat F] [F64 F] [F32 F] [LawfulF64 F] (pf : Text → Py F) (d : MdsDir) (fname : Text) (e : Endian) (fill : F)
    (ds : DataSet) (common : Text → Option (List (Val F))) (tile : Text → Spec.MdsTile F) (hlev : ds.gl = []) (hR : 0 < ds.R)
    (hc : Spec.Common ds common) (hfound : ∃ n, Spec.Found d fname n)
    (hfiles : ∀ n, Spec.Found d fname n → Spec.TileFile pf d e ds common n (tile n)) :
    ∃ a : NdArr F, rdmds pf d fname { endian := e, fill := fill } = .ok a ∧ a.shape = (if 1 < ds.R then [ds.R] else []) ++ ds.G ∧
      ∀ r q, r < ds.R → InShape ds.G q → Spec.Belongs d fname ds tile fill r q (a.get ((if 1 < ds.R then [r] else []) ++ q)) := by
  have hsel : Spec.Selects ({ endian := e, fill := fill } : RdArgs F) ds [] none (List.range ds.R) :=
    ⟨by rw [hlev]; trivial, by rw [hlev]; rfl, trivial, rfl⟩
  have hG : ds.G = ds.gm ++ lastDims ds.gy ds.gx none := by unfold DataSet.G; rw [hlev]; rfl
  obtain ⟨full, a, h1, h2, h3, h4, h5⟩ := rdmds_squeezed (fname := fname) (pf := pf) (d := d) hsel hc
    ⟨List.cons_ne_nil _ _, fun h => by
      have := congrArg List.length h
      rw [List.length_range] at this
      simp at this; omega, fun l hl => by cases hl⟩ rfl
    (fun it hit => by
      have : it = none := List.mem_singleton.1 hit
      subst this
      exact ⟨hfound, hfiles⟩)
  have hshape : ([1, ds.R] : List Nat).filter (1 < ·) = if 1 < ds.R then [ds.R] else [] := by
    rw [List.filter_cons, if_neg (by simp), List.filter_cons]
    simp
  have h2 : a.shape = ([1, ds.R] : List Nat).filter (1 < ·) ++ ds.G := by
    rw [h2, hG, List.length_range]; rfl
  rw [hshape] at h2
  refine ⟨a, h1, h2, ?_⟩
  intro r q hr hq
  have hfull := h5 0 r q none r rfl (List.getElem?_range hr) (by unfold outDims; rw [hG] at hq; exact hq)
  have h4 : full.shape = 1 :: ds.R :: ds.G := by
    rw [h4, List.length_range, hG]; rfl
  have hin : InShape full.shape (0 :: r :: q) := by rw [h4]; exact ⟨by omega, hr, hq⟩
  have hget : a.get ((if 1 < ds.R then [r] else []) ++ q) = full.get (0 :: r :: q) := by
    rw [h3]
    apply NdArr.ofList_get
    have hrav : ravel a.shape ((if 1 < ds.R then [r] else []) ++ q) = ravel full.shape (0 :: r :: q) := by
      rw [h2, h4]
      by_cases h1R : 1 < ds.R
      · rw [if_pos h1R, if_pos h1R]
        show _ = 0 * _ + _
        rw [Nat.zero_mul, Nat.zero_add]; rfl
      · rw [if_neg h1R, if_neg h1R]
        have : r = 0 := by omega
        subst this
        show ravel ds.G q = 0 * _ + (0 * _ + ravel ds.G q)
        omega
    rw [hrav]
    exact NdArr.toList_get full hin
  rw [hget]
  exact hfull

/-! ## Order of the files -/

/-- Tiles do not overlap. -/
def Spec.Apart (d : MdsDir) (name : Text) (ds : DataSet) (tile : Text → Spec.MdsTile F) : Prop :=
  ∀ p m n, Spec.Found d name m → Spec.Found d name n → Spec.Covers ((tile m).box.start ds) ds.Z p →
    Spec.Covers ((tile n).box.start ds) ds.Z p → m = n

theorem belongs_unique [F32 F] {d : MdsDir} {name : Text} {ds : DataSet} {tile : Text → Spec.MdsTile F} (h : Spec.Apart d name ds tile) {fill : F}
    {r : Nat} {p : List Nat} {v v' : F} (hv : Spec.Belongs d name ds tile fill r p v) (hv' : Spec.Belongs d name ds tile fill r p v') :
    v = v' := by
  by_cases hex : ∃ n, Spec.Found d name n ∧ Spec.Covers ((tile n).box.start ds) ds.Z p
  · obtain ⟨n, hn, hcov⟩ := hex
    have hu := fun m hm hcm => h p m n hm hn hcm hcov
    rw [hv.1 n hn hcov hu, hv'.1 n hn hcov hu]
  · have hno : ∀ n, Spec.Found d name n → ¬ Spec.Covers ((tile n).box.start ds) ds.Z p := fun n hn hcov => hex ⟨n, hn, hcov⟩
    rw [hv.2 hno, hv'.2 hno]

theorem found_congr {d d' : MdsDir} (h : ∀ n, n ∈ d.names ↔ n ∈ d'.names) {name n : Text} : Spec.Found d name n ↔ Spec.Found d' name n := by
  unfold Spec.Found
  constructor
  · rintro ⟨h1, h2⟩
    refine ⟨(h n).1 h1, h2.imp id fun x => ⟨fun m hm => x.1 m ((h m).2 hm), x.2⟩⟩
  · rintro ⟨h1, h2⟩
    refine ⟨(h n).2 h1, h2.imp id fun x => ⟨fun m hm => x.1 m ((h m).1 hm), x.2⟩⟩

theorem insertNat_comm (a b : Nat) : ∀ l, insertNat a (insertNat b l) = insertNat b (insertNat a l)
  | [] => by
    simp only [insertNat]
    by_cases h1 : a ≤ b <;> by_cases h2 : b ≤ a <;> simp [h1, h2] <;> omega
  | c :: l => by
    have ih := insertNat_comm a b l
    simp only [insertNat]
    by_cases h1 : a ≤ c <;> by_cases h2 : b ≤ c <;> by_cases h3 : a ≤ b <;> by_cases h4 : b ≤ a <;>
      simp [insertNat, h1, h2, h3, h4, ih] <;> omega

theorem sortNat_perm {l m : List Nat} (h : l.Perm m) : sortNat l = sortNat m := by
  induction h with
  | nil => rfl
  | cons a _ ih => show insertNat a _ = insertNat a _; rw [ih]
  | swap a b l => exact insertNat_comm b a (sortNat l)
  | trans _ _ ih1 ih2 => rw [ih1, ih2]

theorem itrsOf_perm {d d' : MdsDir} (h : d.names.Perm d'.names) (fname : Text) (its : Itrs) : itrsOf d fname its = itrsOf d' fname its := by
  have hw : ∀ s, (d.itrsWith fname s).Perm (d'.itrsWith fname s) := fun s => h.filterMap _
  have hs : d.scan fname = d'.scan fname := by
    unfold MdsDir.scan
    dsimp only
    have : (d.itrsWith fname ".001.001.meta".toList = []) ↔ (d'.itrsWith fname ".001.001.meta".toList = []) := by
      constructor <;> intro he
      · have := hw ".001.001.meta".toList; rw [he] at this; exact List.nil_perm.1 this
      · have := hw ".001.001.meta".toList; rw [he] at this; exact List.perm_nil.1 this
    by_cases he : d.itrsWith fname ".001.001.meta".toList = []
    · rw [if_pos he, if_pos (this.1 he)]; exact sortNat_perm (hw _)
    · rw [if_neg he, if_neg (fun h => he (this.2 h))]; exact sortNat_perm (hw _)
  cases its <;> unfold itrsOf <;> first | rfl | (dsimp only; rw [hs])

theorem TileFile_congr [F64 F] [F32 F] {pf : Text → Py F} {d d' : MdsDir} (h : ∀ n, n ∈ d.names ↔ n ∈ d'.names) (ht : d'.text = d.text)
    (hd : d'.data = d.data) {e : Endian} {ds : DataSet} {common : Text → Option (List (Val F))} {n : Text} {t : Spec.MdsTile F}
    (hf : Spec.TileFile pf d e ds common n t) : Spec.TileFile pf d' e ds common n t :=
  ⟨hf.fits, (h n).1 hf.metaIn, by rw [ht]; exact hf.says, (h _).1 hf.dataIn, by rw [hd]; exact hf.data⟩

/-- C60: the order in which the operating system lists the files does not matter if tiles do not overlap. -/
theorem C60_order_independent [PyFloat F] [F64 F] [F32 F] [LawfulF64 F] (pf : Text → Py F) (d d' : MdsDir) (fname : Text) (args : RdArgs F)
    (ds : DataSet) (common : Text → Option (List (Val F))) (tile : Text → Spec.MdsTile F) (L : List (List Nat)) (w : Win) (K : List Nat)
    (hnames : d.names.Perm d'.names) (htext : d'.text = d.text) (hdata : d'.data = d.data)
    (hsel : Spec.Selects args ds L w K) (hc : Spec.Common ds common)
    (hfiles : ∀ it ∈ itrsOf d fname args.itrs, (∃ n, Spec.Found d (nameOf fname it) n) ∧
      (∀ n, Spec.Found d (nameOf fname it) n → Spec.TileFile pf d args.endian ds common n (tile n)) ∧
      Spec.Apart d (nameOf fname it) ds tile) :
    rdmds pf d fname args = rdmds pf d' fname args := by
  have hmem : ∀ n, n ∈ d.names ↔ n ∈ d'.names := fun n => hnames.mem_iff
  have hits := itrsOf_perm hnames fname args.itrs
  by_cases hne : itrsOf d fname args.itrs = []
  · unfold rdmds
    dsimp only
    rw [← hits, hne]
    rfl
  · obtain ⟨full, h1, h2, h3⟩ := rdmds_reads (pf := pf) (tile := tile) hsel hc hne (fun it hit => ⟨(hfiles it hit).1, (hfiles it hit).2.1⟩)
    obtain ⟨full', h1', h2', h3'⟩ := rdmds_reads (pf := pf) (d := d') (fname := fname) (tile := tile) hsel hc (by rw [← hits]; exact hne)
      (by
        intro it hit
        rw [← hits] at hit
        obtain ⟨⟨n, hn⟩, hf, -⟩ := hfiles it hit
        exact ⟨⟨n, (found_congr hmem).1 hn⟩, fun n hn => TileFile_congr hmem htext hdata (hf n ((found_congr hmem).2 hn))⟩)
    rw [h3, h3', ← hits]
    have hl : full.toList = full'.toList := by
      apply NdArr.toList_congr
      · rw [h1, h1', hits]
      · intro idx hidx
        rw [h1] at hidx
        match idx, hidx with
        | i :: k :: q, ⟨hi, hk, hq⟩ =>
          have ei := List.getElem?_eq_getElem hi
          have ek := List.getElem?_eq_getElem hk
          have b1 := h2 i k q _ _ ei ek hq
          have b2 := h2' i k q ((itrsOf d fname args.itrs)[i]) _ (by rw [← hits]; exact ei) ek hq
          have hap := (hfiles _ (List.getElem_mem hi)).2.2
          refine belongs_unique hap b1 ?_
          obtain ⟨c1, c2⟩ := b2
          exact ⟨fun n hn hcov hu => c1 n ((found_congr hmem).1 hn) hcov (fun m hm => hu m ((found_congr hmem).2 hm)),
            fun hno => c2 fun n hn => hno n ((found_congr hmem).2 hn)⟩
        | [], h => exact h.elim
        | [_], h => exact h.2.elim
    unfold NdArr.reshape
    rw [hl, h1, h1', hits]

/-! ## Selections are slices of the whole (C69) -/

/-- All axes but the last two counted as further axes. -/
def DataSet.flat (ds : DataSet) : DataSet := { ds with gl := [], gm := ds.gl ++ ds.gm, zm := ds.gl ++ ds.zm }
def Box.flat (ds : DataSet) (b : Box) : Box := { b with sm := List.replicate ds.gl.length 0 ++ b.sm }

theorem fits_flat : ∀ {gl gm sm zm : List Nat}, Fits gm sm zm → Fits (gl ++ gm) (List.replicate gl.length 0 ++ sm) (gl ++ zm)
  | [], _, _, _, h => h
  | g :: gl, _, _, _, h => ⟨by omega, fits_flat (gl := gl) h⟩

theorem TileFile.flat [F64 F] [F32 F] {pf : Text → Py F} {d : MdsDir} {e : Endian} {ds : DataSet}
    {common : Text → Option (List (Val F))} {n : Text} {t : Spec.MdsTile F} (h : Spec.TileFile pf d e ds common n t) :
    Spec.TileFile pf d e ds.flat common n ⟨t.box.flat ds, t.elem⟩ where
  fits := ⟨fits_flat h.fits.mid, h.fits.y, h.fits.x⟩
  metaIn := h.metaIn
  says := ⟨h.says.entries⟩
  dataIn := h.dataIn
  data := h.data

theorem covers_inShape : ∀ {G S Z p : List Nat}, Fits G S Z → Spec.Covers S Z p → InShape G p
  | [], [], [], [], _, _ => trivial
  | g :: G, s :: S, z :: Z, i :: p, hf, hc => ⟨by have := hc.1; have := hf.1; omega, covers_inShape hf.2 hc.2⟩
  | [], [], _ :: _, _, h, _ => h.elim
  | [], _ :: _, _, _, h, _ => h.elim
  | _ :: _, [], _, _, h, _ => h.elim
  | _ :: _, _ :: _, [], _, h, _ => h.elim
  | [], [], [], _ :: _, _, h => h.elim
  | _ :: _, _ :: _, _ :: _, [], _, h => h.elim

theorem box_fits {ds : DataSet} {b : Box} (hb : b.OK ds) : Fits ds.G (b.start ds) ds.Z := by
  have key : ∀ {G S Z : List Nat}, Fits G S Z → ∀ {G' S' Z' : List Nat}, Fits G' S' Z' → Fits (G ++ G') (S ++ S') (Z ++ Z') := by
    intro G
    induction G with
    | nil => intro S Z h; cases S <;> cases Z <;> first | exact h.elim | (intro G' S' Z' h'; exact h')
    | cons g G ih => intro S Z h; cases S with
      | nil => exact h.elim
      | cons s S => cases Z with
        | nil => exact h.elim
        | cons z Z => intro G' S' Z' h'; exact ⟨h.1, ih h.2 h'⟩
  exact key (fits_flat hb.mid) ⟨hb.y, hb.x, trivial⟩

/-- C69: what is selected by `rec`, `lev` and `region` is that part of what is read without them. -/
theorem C69_selection_is_slice [PyFloat F] [F64 F] [F32 F] [LawfulF64 F] (pf : Text → Py F) (d : MdsDir) (fname : Text) (args : RdArgs F)
    (ds : DataSet) (common : Text → Option (List (Val F))) (tile : Text → Spec.MdsTile F) (L : List (List Nat)) (w : Win) (K : List Nat)
    (hsel : Spec.Selects args ds L w K) (hc : Spec.Common ds common) (hsome : Spec.Something (itrsOf d fname args.itrs) L K)
    (hsq : args.squeeze = true) 
    (hfiles : ∀ it ∈ itrsOf d fname args.itrs, (∃ n, Spec.Found d (nameOf fname it) n) ∧
      (∀ n, Spec.Found d (nameOf fname it) n → Spec.TileFile pf d args.endian ds common n (tile n)) ∧
      Spec.Apart d (nameOf fname it) ds tile) :
    ∃ a b whole : NdArr F, rdmds pf d fname args = .ok a ∧ rdmds pf d fname { args with rec? := none, region := none, lev := [] } = .ok b ∧
      a.shape = ((itrsOf d fname args.itrs).length :: K.length :: L.map List.length).filter (1 < ·) ++ (ds.gm ++ lastDims ds.gy ds.gx w) ∧
      b.shape = [(itrsOf d fname args.itrs).length, ds.R].filter (1 < ·) ++ ds.G ∧
      whole.shape = (itrsOf d fname args.itrs).length :: ds.R :: ds.G ∧ whole.toList = b.toList ∧
      a.toList = (indices ((itrsOf d fname args.itrs).length :: K.length :: outDims ds L w)).map fun idx =>
        let i := idx.getD 0 0
        let k := K.getD (idx.getD 1 0) 0
        let p := Spec.position L w (idx.drop 2)
        if InShape ds.G p then whole.get (i :: k :: p) else args.fill := by
  have hKR : K ≠ [] → 0 < ds.R := by
    intro hK
    cases K with
    | nil => exact absurd rfl hK
    | cons k K => exact Nat.lt_of_le_of_lt (Nat.zero_le _) ((reads_of hsel).recLt k (by simp))
  have hR := hKR hsome.2.1
  obtain ⟨full, a, h1, h2, h3, h4, h5⟩ := rdmds_squeezed (pf := pf) (tile := tile) hsel hc hsome hsq
    (fun it hit => ⟨(hfiles it hit).1, (hfiles it hit).2.1⟩)
  have hsel0 : Spec.Selects ({ args with rec? := none, region := none, lev := [] } : RdArgs F) ds.flat [] none (List.range ds.R) :=
    ⟨trivial, rfl, trivial, rfl⟩
  obtain ⟨whole, b, g1, g2, g3, g4, g5⟩ := rdmds_squeezed (pf := pf) (d := d) (fname := fname) (ds := ds.flat)
    (tile := fun n => ⟨(tile n).box.flat ds, (tile n).elem⟩) hsel0
    (⟨hc.prec, hc.nrec, hc.real⟩ : Spec.Common ds.flat common)
    ⟨hsome.1, fun h => by
      have := congrArg List.length h
      rw [List.length_range] at this
      simp at this; omega, fun l hl => by cases hl⟩ hsq
    (fun it hit => ⟨(hfiles it hit).1, fun n hn => TileFile.flat ((hfiles it hit).2.1 n hn)⟩)
  have hGf : ds.flat.gm ++ lastDims ds.flat.gy ds.flat.gx none = ds.G := rfl
  have g4 : whole.shape = (itrsOf d fname args.itrs).length :: ds.R :: ds.G := by
    rw [g4, List.length_range]; rfl
  have g2 : b.shape = [(itrsOf d fname args.itrs).length, ds.R].filter (1 < ·) ++ ds.G := by
    rw [g2, List.length_range]; rfl
  have g6 : whole.toList = b.toList := by
    rw [g3]
    refine (NdArr.ofList_toList _ ?_).symm
    rw [NdArr.toList_length, g4, g2, prodL_append, prodL_filter]
    · show _ * (_ * _) = _ * (_ * 1) * _
      rw [Nat.mul_one, Nat.mul_assoc]
    · intro n hn
      simp only [List.mem_cons, List.not_mem_nil, or_false] at hn
      rcases hn with rfl | rfl
      · exact List.length_pos_iff.2 hsome.1
      · exact hR
  have hal : a.toList = full.toList := by
    rw [h3]
    refine NdArr.ofList_toList _ ?_
    rw [NdArr.toList_length, h4, h2, prodL_append, prodL_filter]
    · unfold outDims
      rw [List.append_assoc, ← prodL_append]
      rfl
    · intro n hn
      rcases List.mem_cons.1 hn with rfl | hn
      · exact List.length_pos_iff.2 hsome.1
      · rcases List.mem_cons.1 hn with rfl | hn
        · exact List.length_pos_iff.2 hsome.2.1
        · obtain ⟨l, hl, rfl⟩ := List.mem_map.1 hn
          exact List.length_pos_iff.2 (hsome.2.2 l hl)
  refine ⟨a, b, whole, h1, g1, h2, g2, g4, g6, ?_⟩
  rw [hal]
  show (indices full.shape).map full.get = _
  rw [h4]
  apply List.map_congr_left
  intro idx hidx
  have hidx := mem_indices.1 hidx
  match idx, hidx with
  | i :: k :: q, ⟨hi, hk, hq⟩ =>
    have ei := List.getElem?_eq_getElem hi
    have ek := List.getElem?_eq_getElem hk
    have b1 := h5 i k q _ _ ei ek hq
    show full.get (i :: k :: q) = if InShape ds.G (Spec.position L w q) then whole.get (i :: K.getD k 0 :: Spec.position L w q) else args.fill
    have hKk : K.getD k 0 = K[k] := by rw [List.getD_eq_getElem?_getD, ek]; rfl
    rw [hKk]
    have hKlt : K[k] < ds.R := (reads_of hsel).recLt _ (List.getElem_mem hk)
    by_cases hp : InShape ds.G (Spec.position L w q)
    · rw [if_pos hp]
      have b2 := g5 i K[k] (Spec.position L w q) _ _ ei (List.getElem?_range hKlt) hp
      exact belongs_unique (hfiles _ (List.getElem_mem hi)).2.2 b1 b2
    · rw [if_neg hp]
      exact b1.2 fun n hn hcov => hp (covers_inShape (box_fits ((hfiles _ (List.getElem_mem hi)).2.1 n hn).fits) hcov)
  | [], h => exact h.elim
  | [_], h => exact h.2.elim

/-! ## Example

Two records of 2 levels, 2 rows and 3 columns in tiles of one column; the tile of the middle column is missing. -/

namespace ExTiles

instance : F32 Toy := ⟨fun x => x.bits.setWidth 32, fun b => ⟨b.setWidth 64⟩⟩

def pf : Text → Py Toy := fun _ => .error .valueError

def ds : DataSet := ⟨.f64, 2, [2], [], 2, 3, [], 2, 1⟩

def tile1 : Spec.MdsTile Toy := ⟨⟨[], 0, 0⟩, fun i => ⟨BitVec.ofNat 64 (100 + ravel [2, 2, 2, 1] i)⟩⟩
def tile2 : Spec.MdsTile Toy := ⟨⟨[], 0, 2⟩, fun i => ⟨BitVec.ofNat 64 (200 + ravel [2, 2, 2, 1] i)⟩⟩

def name1 : Text := "T.001.001.meta".toList
def name2 : Text := "T.002.001.meta".toList
def data1 : Text := "T.001.001.data".toList
def data2 : Text := "T.002.001.data".toList
def text1 : Text := "dimList = [ 3, 1, 1, 2, 1, 2,\n 2, 1, 2 ];\ndataprec = [ 'float64' ];\nnrecords = [ 2 ];\n".toList
def text2 : Text := "dimList = [ 3, 3, 3, 2, 1, 2,\n 2, 1, 2 ];\ndataprec = [ 'float64' ];\nnrecords = [ 2 ];\n".toList

def tile (n : Text) : Spec.MdsTile Toy := if n = name1 then tile1 else tile2

def bytesOf (t : Spec.MdsTile Toy) : List Byte := (indices [2, 2, 2, 1]).flatMap fun i => itemBytes .f64 .big (t.elem i)

def dir : MdsDir := ⟨[data1, name2, name1, data2], fun n => if n = name1 then text1 else text2,
  fun n => if n = data1 then bytesOf tile1 else bytesOf tile2⟩

def shared : Dict Toy := [("dataprec".toList, [.str "float64".toList]), ("nrecords".toList, [.int 2])]

def own1 : List (Val Toy) := [.int 3, .int 1, .int 1, .int 2, .int 1, .int 2, .int 2, .int 1, .int 2]
def own2 : List (Val Toy) := [.int 3, .int 3, .int 3, .int 2, .int 1, .int 2, .int 2, .int 1, .int 2]

theorem common : Spec.Common ds shared.get where
  prec := by decide +kernel
  nrec := by decide +kernel
  real := fun k vs x h hx => by
    have hm := Dict.mem_of_get h
    simp only [shared, List.mem_cons, Prod.mk.injEq, List.not_mem_nil, or_false] at hm
    rcases hm with ⟨_, rfl⟩ | ⟨_, rfl⟩ <;> simp at hx

theorem files : dir.metafiles "T".toList = [name2, name1] := by decide +kernel

theorem shared_get {v : List (Val Toy)} {k : Text} (hk : k ∉ Spec.ownKeys) :
    Dict.get (("dimList".toList, v) :: shared) k = shared.get k := by
  have : ¬ ("dimList".toList = k) := fun h => hk (by rw [← h]; decide +kernel)
  unfold Dict.get
  rw [List.find?_cons_of_neg (by simpa using this)]

theorem tileFile : ∀ n, Spec.Found dir "T".toList n → Spec.TileFile pf dir .big ds shared.get n (tile n) := by
  intro n hn
  rw [← mem_metafiles, files] at hn
  have h2 : Spec.TileFile pf dir .big ds shared.get name2 (tile name2) :=
    { fits := ⟨trivial, by decide +kernel, by decide +kernel⟩
      metaIn := by decide +kernel
      says := ⟨("dimList".toList, own2) :: shared, by decide +kernel, by decide +kernel, by decide +kernel, fun k hk => shared_get hk⟩
      dataIn := by decide +kernel
      data := by decide +kernel }
  have h1 : Spec.TileFile pf dir .big ds shared.get name1 (tile name1) :=
    { fits := ⟨trivial, by decide +kernel, by decide +kernel⟩
      metaIn := by decide +kernel
      says := ⟨("dimList".toList, own1) :: shared, by decide +kernel, by decide +kernel, by decide +kernel, fun k hk => shared_get hk⟩
      dataIn := by decide +kernel
      data := by decide +kernel }
  simp only [List.mem_cons, List.not_mem_nil, or_false] at hn
  rcases hn with rfl | rfl
  · exact h2
  · exact h1

theorem found : ∃ n, Spec.Found dir "T".toList n := ⟨name1, mem_metafiles.1 (by rw [files]; simp)⟩

theorem apart : Spec.Apart dir "T".toList ds tile := by
  intro p m n hm hn hcm hcn
  rw [← mem_metafiles, files] at hm hn
  have hs1 : (tile name1).box.start ds = [0, 0, 0] := by decide +kernel
  have hs2 : (tile name2).box.start ds = [0, 0, 2] := by decide +kernel
  simp only [List.mem_cons, List.not_mem_nil, or_false] at hm hn
  have hno : ∀ p, Spec.Covers [0, 0, 0] ds.Z p → Spec.Covers [0, 0, 2] ds.Z p → False := by
    intro p h1 h2
    match p, h1, h2 with
    | [_, _, x], h1, h2 =>
      have a : x < 0 + 1 := h1.2.2.1.2
      have b : 2 ≤ x := h2.2.2.1.1
      omega
    | [], h1, _ => exact h1
    | [_], h1, _ => exact h1.2
    | [_, _], h1, _ => exact h1.2.2
    | _ :: _ :: _ :: _ :: _, h1, _ => exact h1.2.2.2
  rcases hm with rfl | rfl <;> rcases hn with rfl | rfl
  · rfl
  · rw [hs2] at hcm; rw [hs1] at hcn; exact (hno p hcn hcm).elim
  · rw [hs1] at hcm; rw [hs2] at hcn; exact (hno p hcm hcn).elim
  · rfl

/-- The hypotheses of C60 hold, and the result has the two tiles and the fill value between. -/
example : ∃ a : NdArr Toy, rdmds pf dir "T".toList { endian := .big, fill := ⟨7⟩ } = .ok a ∧ a.shape = [2, 2, 2, 3] ∧
    ∀ r q, r < 2 → InShape ds.flat.G q → Spec.Belongs dir "T".toList ds.flat (fun n => ⟨(tile n).box.flat ds, (tile n).elem⟩) ⟨7⟩ r q (a.get (r :: q)) :=
  C60_tile_assembly pf dir "T".toList .big ⟨7⟩ ds.flat shared.get (fun n => ⟨(tile n).box.flat ds, (tile n).elem⟩) rfl (by decide)
    ⟨common.prec, common.nrec, common.real⟩ found (fun n hn => TileFile.flat (tileFile n hn))

example : (rdmds pf dir "T".toList { endian := .big, fill := ⟨7⟩ }).map (fun a => (a.shape, a.toList.map (·.bits.toNat))) =
    .ok ([2, 2, 2, 3], [100, 7, 200, 101, 7, 201, 102, 7, 202, 103, 7, 203, 104, 7, 204, 105, 7, 205, 106, 7, 206, 107, 7, 207]) := by
  decide +kernel

/-- A selection: the last record, the second level twice, the last two columns. -/
def args : RdArgs Toy := { fill := ⟨7⟩, rec? := some (.many [-1]), lev := [.many [1, -1]], region := some (1, 4, 0, -1) }

theorem selects : Spec.Selects args ds [[1, 1]] (some (1, 4, 0, 1)) [1] where
  levs := by
    refine ⟨⟨by decide, ⟨by decide, .inl rfl⟩, ⟨by decide, .inr rfl⟩, trivial⟩, trivial⟩
  levLen := rfl
  region := ⟨.inl (by decide), .inl (by decide), .inl (by decide), .inr (by decide), by decide, by decide⟩
  recs := ⟨⟨by decide, .inr rfl⟩, trivial⟩

theorem all_files : ∀ it ∈ itrsOf dir "T".toList args.itrs, (∃ n, Spec.Found dir (nameOf "T".toList it) n) ∧
    (∀ n, Spec.Found dir (nameOf "T".toList it) n → Spec.TileFile pf dir args.endian ds shared.get n (tile n)) ∧
    Spec.Apart dir (nameOf "T".toList it) ds tile := by
  intro it hit
  have : it = none := List.mem_singleton.1 hit
  subst this
  exact ⟨found, tileFile, apart⟩

example : rdmds pf dir "T".toList args = rdmds pf { dir with names := [name1, data1, name2, data2] } "T".toList args :=
  C60_order_independent pf dir { dir with names := [name1, data1, name2, data2] } "T".toList args ds shared.get tile [[1, 1]]
    (some (1, 4, 0, 1)) [1] (by decide +kernel) rfl rfl selects common all_files

example := C69_selection_is_slice pf dir "T".toList args ds shared.get tile [[1, 1]] (some (1, 4, 0, 1)) [1] selects common
  ⟨by decide, by decide, by decide⟩ rfl all_files

example : (rdmds pf dir "T".toList args).map (fun a => (a.shape, a.toList.map (·.bits.toNat))) =
    .ok ([2, 1, 3], [7, 206, 7, 7, 206, 7]) := by decide +kernel

end ExTiles

end SG
