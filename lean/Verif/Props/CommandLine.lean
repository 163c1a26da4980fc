import Verif.Lemmas.CommandLine
/-! # C85, C86: what command lines mean -/
set_option linter.unusedSectionVars false

namespace SG.Cli
variable {F : Type}

/-! ## Specification -/

namespace Spec

/-- One option on the command line: `--name value`, `--name=value`, `--flag` or `-f`. -/
inductive Item
  | pair (o : Opt) (v : Text)
  | glued (o : Opt) (v : Text)
  | flag (o : Opt)
  | short (o : Opt) (c : Char)

def Item.opt : Item → Opt
  | .pair o _ | .glued o _ | .flag o | .short o _ => o

/-- The words typed. -/
def Item.words : Item → List Text
  | .pair o v => [o.long, v]
  | .glued o v => [o.long ++ '=' :: v]
  | .flag o => [o.long]
  | .short _ c => [['-', c]]

def IsDigits (t : Text) : Prop := t ≠ [] ∧ ∀ c ∈ t, c.isDigit = true

/-- A minus sign and digits, possibly with a decimal point that is followed by a digit. -/
def NegNumber (v : Text) : Prop :=
  (∃ ds, IsDigits ds ∧ v = '-' :: ds) ∨ ∃ ds es, (∀ c ∈ ds, c.isDigit = true) ∧ IsDigits es ∧ v = '-' :: (ds ++ '.' :: es)

/-- Words that can stand as the value after `--name`. -/
def Plain (v : Text) : Prop :=
  v.head? ≠ some '-' ∨ v = ['-'] ∨ NegNumber v ∨ ' ' ∈ v ∧ ∃ c s, v = '-' :: c :: s ∧ c ≠ '-' ∧ c ∉ ['h', 's', 'v']

/-- An option of the command, used as its kind asks. -/
def Item.Proper (P : Parser) : Item → Prop
  | .pair o v => o ∈ P ∧ (o.kind = .float ∨ o.kind = .int ∨ o.kind = .text) ∧ Plain v
  | .glued o _ => o ∈ P ∧ (o.kind = .float ∨ o.kind = .int ∨ o.kind = .text)
  | .flag o => o ∈ P ∧ o.kind = .flag
  | .short o c => o ∈ P ∧ o.kind = .flag ∧ o.short = some c

/-- The value meant: the number read from the text, the text, or `True`. -/
def Item.value (pf : Text → Option F) (pi : Text → Option Int) : Item → Option (Val F)
  | .pair o v | .glued o v =>
    match o.kind with
    | .float => (pf v).map .float
    | .int => (pi v).map .int
    | _ => some (.text v)
  | .flag _ | .short _ _ => some .true_

/-- What the items say about an option: the last one counts. -/
def given (pf : Text → Option F) (pi : Text → Option Int) (items : List Item) (name : Text) : Option (Val F) :=
  (items.reverse.find? fun it => it.opt.long = name).bind (Item.value pf pi)

/-- The words of a command line. -/
def line (items : List Item) : List Text := items.flatMap Item.words

/-- Every value can be read, and no required option is missing. -/
def Complete (pf : Text → Option F) (pi : Text → Option Int) (P : Parser) (items : List Item) : Prop :=
  (∀ it ∈ items, it.value pf pi ≠ none) ∧ ∀ o ∈ P, o.required = true → ∃ it ∈ items, it.opt.long = o.long

/-- The documented options of the commands, written out independently of the model: name, what it takes, whether it is required. -/
def takes (k : Kind) (n : String) : Opt := { long := n.toList, kind := k }
def needs (k : Kind) (n : String) : Opt := { long := n.toList, kind := k, required := true }
def switch (c : Char) (n : String) : Opt := { long := n.toList, kind := .flag, short := some c }

def mkgridOptions : List Opt :=
  [takes .float "--lon1", takes .float "--lat1", takes .float "--lon2", takes .float "--lat2", takes .int "--lon_subscale",
   takes .int "--lat_subscale", takes .text "--outfile", switch 'v' "--verbose"]
def regridOptions : List Opt :=
  [takes .text "--mitgridfile", takes .text "--xg_file", takes .text "--yg_file", needs .int "--ni", needs .int "--nj", needs .float "--lon1",
   needs .float "--lat1", needs .float "--lon2", needs .float "--lat2", needs .int "--lon_subscale", needs .int "--lat_subscale",
   needs .text "--outfile", switch 's' "--strict", switch 'v' "--verbose"]
def tilesOptions : List Opt :=
  [needs .text "--tilea", needs .int "--nia", needs .int "--nja", needs .text "--tileb", needs .int "--nib", needs .int "--njb",
   needs .text "--outfile", switch 's' "--strict", switch 'v' "--verbose"]
/-- (The help text says that `--resultsdir` has a default, but see C88.) -/
def obcsOptions : List Opt :=
  [needs .text "--parent_mitgridfile", needs .int "--ni_parent", needs .int "--nj_parent", needs .text "--regional_mitgridfile",
   needs .int "--ni_regional", needs .int "--nj_regional", needs .text "--parent_resultsdir", takes .int "--OB_Jnorth", takes .int "--OB_Jsouth",
   takes .int "--OB_Ieast", takes .int "--OB_Iwest", needs .text "--resultsdir", switch 's' "--strict", switch 'v' "--verbose"]

/-- Documented options, and the parser of the command: `sgmkgrid`, `sgregrid`, `sgaddfringe` and `sgstitch`, `sggetobcs`. -/
def tables : List (List Opt × Parser) :=
  [(mkgridOptions, mkgridParser), (regridOptions, regridParser), (tilesOptions, twoTilesParser), (obcsOptions, getobcsParser)]

end Spec
open Spec

/-- The parsers of the model. -/
def parsers : List Parser := [mkgridParser, regridParser, twoTilesParser, getobcsParser]

theorem mkgrid_table : mkgridParser = mkgridOptions := by decide +kernel
theorem regrid_table : regridParser = regridOptions := by decide +kernel
theorem tiles_table : twoTilesParser = tilesOptions := by decide +kernel
theorem obcs_table : getobcsParser = obcsOptions := by decide +kernel

theorem table_eq {T : List Opt} {P : Parser} (h : (T, P) ∈ tables) : T = P ∧ P ∈ parsers := by
  simp only [tables, List.mem_cons, Prod.mk.injEq, List.not_mem_nil, or_false] at h
  rcases h with ⟨rfl, rfl⟩ | ⟨rfl, rfl⟩ | ⟨rfl, rfl⟩ | ⟨rfl, rfl⟩
  · exact ⟨mkgrid_table.symm, by simp [parsers]⟩
  · exact ⟨regrid_table.symm, by simp [parsers]⟩
  · exact ⟨tiles_table.symm, by simp [parsers]⟩
  · exact ⟨obcs_table.symm, by simp [parsers]⟩

theorem good_parsers {P : Parser} (h : P ∈ parsers) : Good P := by
  simp only [parsers, List.mem_cons, List.not_mem_nil, or_false] at h
  rcases h with rfl | rfl | rfl | rfl
  · exact good_mkgrid
  · exact good_regrid
  · exact good_twoTiles
  · exact good_getobcs

theorem all_digits {t : Text} : (t ≠ [] && t.all Char.isDigit) = true ↔ IsDigits t := by
  unfold IsDigits
  simp [List.all_eq_true]

theorem dropWhile_digits {ds r : Text} (h : ∀ c ∈ ds, c.isDigit = true) : (ds ++ '.' :: r).dropWhile Char.isDigit = '.' :: r := by
  induction ds with
  | nil => rfl
  | cons a ds ih =>
    rw [List.cons_append, List.dropWhile_cons, if_pos (h a (by simp)), ih fun c hc => h c (by simp [hc])]

theorem takeWhile_all : ∀ (s : Text) (c : Char), c ∈ s.takeWhile Char.isDigit → c.isDigit = true
  | a :: s, c, h => by
    rw [List.takeWhile_cons] at h
    split at h
    · rcases List.mem_cons.1 h with rfl | h
      · assumption
      · exact takeWhile_all s c h
    · cases h

theorem negLike_iff {v : Text} : negLike v = true ↔ NegNumber v := by
  unfold negLike NegNumber
  split
  · rename_i s
    rw [Bool.or_eq_true, all_digits]
    constructor
    · rintro (h | h)
      · exact .inl ⟨s, h, rfl⟩
      · right
        split at h
        · rename_i f hf
          refine ⟨s.takeWhile Char.isDigit, f, fun c hc => takeWhile_all s c hc, all_digits.1 h, ?_⟩
          rw [← hf, List.takeWhile_append_dropWhile]
        · cases h
    · rintro (⟨ds, h, e⟩ | ⟨ds, es, h1, h2, e⟩)
      · cases e; exact .inl h
      · cases e
        right
        rw [dropWhile_digits h1]
        exact all_digits.2 h2
  · rename_i h
    constructor
    · intro h; cases h
    · rintro (⟨ds, -, e⟩ | ⟨ds, es, -, -, e⟩) <;> exact absurd e (h _)

theorem digit_facts {c : Char} (h : c.isDigit = true) : c ≠ '-' ∧ c ∉ ['h', 's', 'v'] := by
  constructor
  · rintro rfl; revert h; decide
  · intro hm
    simp only [List.mem_cons, List.not_mem_nil, or_false] at hm
    rcases hm with rfl | rfl | rfl <;> revert h <;> decide

theorem neg_shape {v : Text} (h : NegNumber v) : ∃ c s, v = '-' :: c :: s ∧ c ≠ '-' ∧ c ∉ ['h', 's', 'v'] := by
  rcases h with ⟨ds, ⟨h1, h2⟩, rfl⟩ | ⟨ds, es, h1, -, rfl⟩
  · cases ds with
    | nil => exact absurd rfl h1
    | cons c s => exact ⟨c, s, rfl, digit_facts (h2 c (by simp))⟩
  · cases ds with
    | nil => exact ⟨'.', es, rfl, by decide, by decide⟩
    | cons c s => exact ⟨c, s ++ '.' :: es, rfl, digit_facts (h1 c (by simp))⟩

theorem parseOptional_value {P : Parser} (hP : Good P) {v : Text} (h : Plain v) : parseOptional P v = some (.arg v) ∧ v ≠ ['-', '-'] := by
  rcases h with h | rfl | h | ⟨hb, c, s, rfl, h1, h2⟩
  · exact ⟨parseOptional_plain P h, by rintro rfl; exact h rfl⟩
  · exact ⟨parseOptional_dash hP, by simp⟩
  · have hn := negLike_iff.2 h
    obtain ⟨c, s, rfl, h1, h2⟩ := neg_shape h
    rw [parseOptional_other hP h1 (not_hsv hP h2), if_pos hn]
    exact ⟨rfl, fun e => h1 (by cases e; rfl)⟩
  · rw [parseOptional_other hP h1 (not_hsv hP h2), if_pos hb, ite_self]
    exact ⟨rfl, fun e => h1 (by cases e; rfl)⟩

/-- How the words of an item are classified. -/
def toksOf : Item → List Tok
  | .pair o v => [.opt o o.long none, .arg v]
  | .glued o v => [.opt o o.long (some (true, v))]
  | .flag o => [.opt o o.long none]
  | .short o c => [.opt o ['-', c] none]

theorem long_ne {P : Parser} (hP : Good P) {o : Opt} (ho : o ∈ P) (s : Text) : o.long ++ s ≠ ['-', '-'] := by
  obtain ⟨c, n, e⟩ := hP.long o (List.mem_cons.2 (.inr ho))
  rw [e]
  intro h
  cases h

theorem words_ne {P : Parser} (hP : Good P) {it : Item} (h : it.Proper P) : ∀ t ∈ it.words, t ≠ ['-', '-'] := by
  intro t ht
  cases it with
  | pair o v =>
    obtain ⟨h1, h2, h3⟩ := h
    simp only [Item.words, List.mem_cons, List.not_mem_nil, or_false] at ht
    rcases ht with rfl | rfl
    · simpa using long_ne hP h1 []
    · exact (parseOptional_value hP h3).2
  | glued o v =>
    simp only [Item.words, List.mem_cons, List.not_mem_nil, or_false] at ht
    subst ht
    exact long_ne hP h.1 _
  | flag o =>
    simp only [Item.words, List.mem_cons, List.not_mem_nil, or_false] at ht
    subst ht
    simpa using long_ne hP h.1 []
  | short o c =>
    simp only [Item.words, List.mem_cons, List.not_mem_nil, or_false] at ht
    subst ht
    have := hP.short o (List.mem_cons.2 (.inr h.1)) c h.2.2
    intro e
    cases e
    revert this; decide

theorem classify_words {P : Parser} (hP : Good P) {it : Item} (h : it.Proper P) : classify P it.words = some (toksOf it) := by
  have hne := words_ne hP h
  cases it with
  | pair o v =>
    obtain ⟨h1, h2, h3⟩ := h
    simp only [Item.words] at hne ⊢
    rw [classify, if_neg (hne _ (by simp)), parseOptional_long hP h1]
    simp only
    rw [classify, if_neg (hne _ (by simp)), (parseOptional_value hP h3).1]
    rfl
  | glued o v =>
    simp only [Item.words] at hne ⊢
    rw [classify, if_neg (hne _ (by simp)), parseOptional_eq hP h.1]
    rfl
  | flag o =>
    simp only [Item.words] at hne ⊢
    rw [classify, if_neg (hne _ (by simp)), parseOptional_long hP h.1]
    rfl
  | short o c =>
    simp only [Item.words] at hne ⊢
    rw [classify, if_neg (hne _ (by simp)), parseOptional_short hP h.1 h.2.2]
    rfl

theorem classify_line {P : Parser} (hP : Good P) : ∀ (items : List Item) (rest : List Text), (∀ it ∈ items, it.Proper P) →
    classify P (line items ++ rest) = (classify P rest).map (items.flatMap toksOf ++ ·)
  | [], rest, _ => by
    show classify P rest = _
    cases classify P rest <;> rfl
  | it :: items, rest, h => by
    show classify P ((it.words ++ line items) ++ rest) = _
    rw [List.append_assoc, classify_append _ _ _ (words_ne hP (h it (by simp))) (classify_words hP (h it (by simp))),
      classify_line hP items rest fun x hx => h x (by simp [hx])]
    cases classify P rest <;> simp

theorem convert_value (pf : Text → Option F) (pi : Text → Option Int) (o : Opt) (v : Text)  :
    convert pf pi o.kind v = (Item.pair o v).value pf pi := by
  unfold convert
  simp only [Item.value]
  cases o.kind <;> rfl

/-- One item. -/
theorem consume_item {pf : Text → Option F} {pi : Text → Option Int} {P : Parser} {it : Item} (h : it.Proper P) (ks : List Tok) (ns : Ns F)
    (ex : Bool) : consume pf pi P (toksOf it ++ ks) ns ex =
      match it.value pf pi with
      | none => .exit 2
      | some v => consume pf pi P ks (ns.set it.opt v) ex := by
  cases it with
  | pair o v =>
    show consume pf pi P (.opt o o.long none :: .arg v :: ks) ns ex = _
    rw [consume_value h.2.1, convert_value]
    rfl
  | glued o v =>
    show consume pf pi P (.opt o o.long (some (true, v)) :: ks) ns ex = _
    rw [consume_eq h.2, convert_value]
    rfl
  | flag o => exact consume_flag h.2 _ _ _ _
  | short o c => exact consume_flag h.2.1 _ _ _ _

/-- What a series of items does to the namespace. -/
def setAll (pf : Text → Option F) (pi : Text → Option Int) (ns : Ns F) (items : List Item) : Ns F := fun n =>
  match items.reverse.find? fun it => it.opt.long = n with
  | some it => it.value pf pi
  | none => ns n

theorem setAll_cons (pf : Text → Option F) (pi : Text → Option Int) (ns : Ns F) (it : Item) (items : List Item) (v : Val F)
    (hv : it.value pf pi = some v) : setAll pf pi (ns.set it.opt v) items = setAll pf pi ns (it :: items) := by
  funext n
  unfold setAll
  rw [List.reverse_cons, List.find?_append]
  cases items.reverse.find? fun it => it.opt.long = n with
  | some x => rfl
  | none =>
    simp only [Option.none_or]
    unfold Ns.set
    by_cases hn : n = it.opt.long
    · simp [hn, hv]
    · have : ¬ it.opt.long = n := fun e => hn e.symm
      simp [hn, this]

theorem consume_items {pf : Text → Option F} {pi : Text → Option Int} {P : Parser} : ∀ (items : List Item) (ks : List Tok) (ns : Ns F) (ex : Bool),
    (∀ it ∈ items, it.Proper P) →
    ((∀ it ∈ items, it.value pf pi ≠ none) → consume pf pi P (items.flatMap toksOf ++ ks) ns ex = consume pf pi P ks (setAll pf pi ns items) ex) ∧
    ((∃ it ∈ items, it.value pf pi = none) → consume pf pi P (items.flatMap toksOf ++ ks) ns ex = .exit 2)
  | [], ks, ns, ex, _ => ⟨fun _ => rfl, fun ⟨_, h, _⟩ => by cases h⟩
  | it :: items, ks, ns, ex, h => by
    have e : (it :: items).flatMap toksOf ++ ks = toksOf it ++ (items.flatMap toksOf ++ ks) := by simp
    rw [e, consume_item (h it (by simp))]
    cases hv : it.value pf pi with
    | none => exact ⟨fun ha => absurd hv (ha it (by simp)), fun _ => rfl⟩
    | some v =>
      simp only
      obtain ⟨i1, i2⟩ := consume_items items ks (ns.set it.opt v) ex fun x hx => h x (by simp [hx])
      refine ⟨fun ha => ?_, fun ⟨x, hx, hn⟩ => ?_⟩
      · rw [i1 fun x hx => ha x (by simp [hx]), setAll_cons pf pi ns it items v hv]
      · rcases List.mem_cons.1 hx with rfl | hx
        · rw [hv] at hn; cases hn
        · exact i2 ⟨x, hx, hn⟩

theorem setAll_given (pf : Text → Option F) (pi : Text → Option Int) (items : List Item) :
    setAll pf pi (fun _ => none) items = given pf pi items := by
  funext n
  unfold setAll given
  cases items.reverse.find? fun it => it.opt.long = n <;> rfl

theorem given_none_iff {pf : Text → Option F} {pi : Text → Option Int} {items : List Item} (h : ∀ it ∈ items, it.value pf pi ≠ none) (n : Text) :
    given pf pi items n = none ↔ ∀ it ∈ items, it.opt.long ≠ n := by
  unfold given
  constructor
  · intro hg it hit e
    cases hf : items.reverse.find? fun it => it.opt.long = n with
    | none =>
      rw [List.find?_eq_none] at hf
      exact absurd (by simpa using e) (hf it (by simpa using hit))
    | some x =>
      rw [hf] at hg
      exact h x (by simpa using List.mem_of_find?_eq_some hf) hg
  · intro ha
    rw [List.find?_eq_none.2]
    · rfl
    · intro x hx
      simpa using ha x (by simpa using hx)

theorem parse_items {pf : Text → Option F} {pi : Text → Option Int} {P : Parser} (hP : Good P) (items : List Item)
    (h : ∀ it ∈ items, it.Proper P) :
    (Complete pf pi P items → parseArgs pf pi P (line items) = .ok (given pf pi items)) ∧
    (¬ Complete pf pi P items → parseArgs pf pi P (line items) = .exit 2) := by
  have hc := classify_line hP items [] h
  rw [List.append_nil] at hc
  have hc' : classify P (line items) = some (items.flatMap toksOf ++ []) := hc
  unfold parseArgs
  rw [hc']
  simp only
  obtain ⟨i1, i2⟩ := consume_items (pf := pf) (pi := pi) items [] (fun _ => none) false h
  by_cases hv : ∀ it ∈ items, it.value pf pi ≠ none
  · rw [i1 hv, setAll_given]
    show (_ → finish _ _ _ = _) ∧ (_ → finish _ _ _ = _)
    unfold finish
    have hb : P.any (fun o => o.required && (given pf pi items o.long).isNone) = true ↔ ¬ Complete pf pi P items := by
      rw [List.any_eq_true]
      unfold Complete
      constructor
      · rintro ⟨o, ho, hx⟩ ⟨-, hr⟩
        rw [Bool.and_eq_true, Option.isNone_iff_eq_none, given_none_iff hv] at hx
        obtain ⟨it, hit, e⟩ := hr o ho hx.1
        exact hx.2 it hit e
      · intro hn
        simp only [not_and, Classical.not_forall] at hn
        obtain ⟨o, ho, hr, hx⟩ := hn hv
        refine ⟨o, ho, ?_⟩
        rw [Bool.and_eq_true, Option.isNone_iff_eq_none, given_none_iff hv]
        exact ⟨hr, fun it hit e => hx ⟨it, hit, e⟩⟩
    refine ⟨fun hC => ?_, fun hC => ?_⟩
    · rw [if_neg (fun e => hb.1 e hC)]
      rfl
    · rw [if_pos (hb.2 hC)]
  · have hv' : ∃ it ∈ items, it.value pf pi = none := by
      simpa only [Classical.not_forall, Classical.not_not, ne_eq, exists_prop] using hv
    rw [i2 hv']
    exact ⟨fun hC => absurd hC.1 hv, fun _ => rfl⟩

/-! ## C85 -/

/-- **C85**: a command line made of options of the command, each written `--name value`, `--name=value`, `--flag` or `-f`, in any order and possibly
repeated, is accepted if every value can be read and no required option is missing; every option then has the value given last, and options not
given have none.  Otherwise the process exits with status 2. -/
theorem C85_command_line (pf : Text → Option F) (pi : Text → Option Int) (T : List Opt) (P : Parser) (hT : (T, P) ∈ tables) (items : List Item)
    (h : ∀ it ∈ items, it.Proper T) :
    (Complete pf pi T items → ∃ ns, parseArgs pf pi P (line items) = .ok ns ∧
      (∀ pre it post, items = pre ++ it :: post → (∀ x ∈ post, x.opt.long ≠ it.opt.long) → ns it.opt.long = it.value pf pi) ∧
      ∀ n, (∀ it ∈ items, it.opt.long ≠ n) → ns n = none) ∧
    (¬ Complete pf pi T items → parseArgs pf pi P (line items) = .exit 2) := by
  obtain ⟨rfl, hP⟩ := table_eq hT
  obtain ⟨p1, p2⟩ := parse_items (pf := pf) (pi := pi) (good_parsers hP) items h
  refine ⟨fun hC => ⟨_, p1 hC, ?_, fun n hn => (given_none_iff hC.1 n).2 hn⟩, p2⟩
  rintro pre it post rfl hl
  unfold given
  rw [List.reverse_append, List.reverse_cons, List.append_assoc, List.find?_append, List.find?_eq_none.2, Option.none_or]
  · simp
  · intro x hx
    simpa using hl x (by simpa using hx)

/-- **C85**: the order of options given once each does not matter. -/
theorem C85_order (pf : Text → Option F) (pi : Text → Option Int) (T : List Opt) (P : Parser) (hT : (T, P) ∈ tables) (items items' : List Item)
    (h : ∀ it ∈ items, it.Proper T) (hp : items.Perm items') (hd : items.Pairwise fun a b => a.opt.long ≠ b.opt.long) :
    parseArgs pf pi P (line items) = parseArgs pf pi P (line items') := by
  obtain ⟨rfl, hP⟩ := table_eq hT
  have h' : ∀ it ∈ items', it.Proper T := fun it hit => h it (hp.mem_iff.2 hit)
  obtain ⟨p1, p2⟩ := parse_items (pf := pf) (pi := pi) (good_parsers hP) items h
  obtain ⟨q1, q2⟩ := parse_items (pf := pf) (pi := pi) (good_parsers hP) items' h'
  have hC : Complete pf pi T items ↔ Complete pf pi T items' := by
    unfold Complete
    simp only [hp.mem_iff]
  by_cases hc : Complete pf pi T items
  · rw [p1 hc, q1 (hC.1 hc)]
    congr 1
    funext n
    unfold given
    have hd' : items'.Pairwise fun a b => a.opt.long ≠ b.opt.long := hp.pairwise hd fun hab => Ne.symm hab
    congr 1
    by_cases hn : ∃ it ∈ items, it.opt.long = n
    · obtain ⟨it, hit, rfl⟩ := hn
      have uniq : ∀ (l : List Item), it ∈ l → l.Pairwise (fun a b => a.opt.long ≠ b.opt.long) →
          l.reverse.find? (fun x => x.opt.long = it.opt.long) = some it := by
        intro l hl hpw
        obtain ⟨a, b, rfl⟩ := List.append_of_mem hl
        rw [List.reverse_append, List.reverse_cons, List.append_assoc, List.find?_append, List.find?_eq_none.2, Option.none_or]
        · simp
        · intro x hx
          have := (List.pairwise_append.1 hpw).2.1
          have := (List.pairwise_cons.1 this).1 x (by simpa using hx)
          simpa using fun e => this e.symm
      rw [uniq items hit hd, uniq items' (hp.mem_iff.1 hit) hd']
    · have hn1 : ∀ l : List Item, (∀ x ∈ l, ¬ x.opt.long = n) → l.reverse.find? (fun x => x.opt.long = n) = none := by
        intro l hl
        rw [List.find?_eq_none]
        intro x hx
        simpa using hl x (by simpa using hx)
      rw [hn1 items fun x hx e => hn ⟨x, hx, e⟩, hn1 items' fun x hx e => hn ⟨x, hp.mem_iff.2 hx, e⟩]
  · rw [p2 hc, q2 (fun e => hc (hC.2 e))]

/-! ## C86 -/

/-- **C86** (which values can follow an option): a value that does not begin with a minus sign, that is a negative number written with digits and
possibly a decimal point between or before digits, or that has a blank, is taken as the value of the option before it, just as after an equals sign.
The second character of a value that begins with a minus sign must not be a minus sign or the letter of a flag, which is so for all texts `float` and
`int` read. -/
theorem C86_negative_numbers_partial (pf : Text → Option F) (pi : Text → Option Int) (T : List Opt) (P : Parser) (hT : (T, P) ∈ tables) (pre post : List Item)
    (h : ∀ it ∈ pre ++ post, it.Proper T) (o : Opt) (ho : o ∈ T) (hk : o.kind = .float ∨ o.kind = .int) (v : Text)
    (hs : v.head? = some '-' → ∃ c s, v = '-' :: c :: s ∧ c ∉ ['-', 'h', 's', 'v']) (hv : v.head? ≠ some '-' ∨ NegNumber v ∨ ' ' ∈ v) :
    parseArgs pf pi P (line pre ++ [o.long, v] ++ line post) = parseArgs pf pi P (line pre ++ [o.long ++ '=' :: v] ++ line post) := by
  have hv : Plain v := by
    rcases hv with hv | hv | hv
    · exact .inl hv
    · exact .inr (.inr (.inl hv))
    · by_cases hh : v.head? = some '-'
      · obtain ⟨c, s, e, hc⟩ := hs hh
        simp only [List.mem_cons, List.not_mem_nil, or_false, not_or] at hc
        exact .inr (.inr (.inr ⟨hv, c, s, e, hc.1, by simp [hc]⟩))
      · exact .inl hh
  obtain ⟨rfl, hP⟩ := table_eq hT
  have hk' : o.kind = .float ∨ o.kind = .int ∨ o.kind = .text := by rcases hk with h | h <;> simp [h]
  have e1 : line pre ++ [o.long, v] ++ line post = line (pre ++ .pair o v :: post) := by simp [line, Item.words]
  have e2 : line pre ++ [o.long ++ '=' :: v] ++ line post = line (pre ++ .glued o v :: post) := by simp [line, Item.words]
  have h1 : ∀ it ∈ pre ++ .pair o v :: post, it.Proper T := by
    intro it hit
    simp only [List.mem_append, List.mem_cons] at hit h
    rcases hit with hit | rfl | hit
    · exact h it (.inl hit)
    · exact ⟨ho, hk', hv⟩
    · exact h it (.inr hit)
  have h2 : ∀ it ∈ pre ++ .glued o v :: post, it.Proper T := by
    intro it hit
    simp only [List.mem_append, List.mem_cons] at hit h
    rcases hit with hit | rfl | hit
    · exact h it (.inl hit)
    · exact ⟨ho, hk'⟩
    · exact h it (.inr hit)
  rw [e1, e2]
  obtain ⟨p1, p2⟩ := parse_items (pf := pf) (pi := pi) (good_parsers hP) _ h1
  obtain ⟨q1, q2⟩ := parse_items (pf := pf) (pi := pi) (good_parsers hP) _ h2
  have hC : Complete pf pi T (pre ++ .pair o v :: post) ↔ Complete pf pi T (pre ++ .glued o v :: post) := by
    unfold Complete
    simp only [List.mem_append, List.mem_cons, or_imp, forall_and, forall_eq, or_and_right, exists_or, exists_eq_left]
    exact Iff.rfl
  by_cases hc : Complete pf pi T (pre ++ .pair o v :: post)
  · rw [p1 hc, q1 (hC.1 hc)]
    congr 1
    funext n
    unfold given
    simp only [List.reverse_append, List.reverse_cons, List.append_assoc, List.find?_append, List.cons_append, List.nil_append,
      List.find?_cons]
    cases post.reverse.find? fun x => x.opt.long = n with
    | some x => rfl
    | none =>
      by_cases hn : o.long = n
      · have d1 : decide ((Item.pair o v).opt.long = n) = true := decide_eq_true hn
        have d2 : decide ((Item.glued o v).opt.long = n) = true := decide_eq_true hn
        rw [d1, d2]
        rfl
      · have d1 : decide ((Item.pair o v).opt.long = n) = false := decide_eq_false hn
        have d2 : decide ((Item.glued o v).opt.long = n) = false := decide_eq_false hn
        rw [d1, d2]
  · rw [p2 hc, q2 (fun e => hc (hC.2 e))]

/-- **C86** (violation): any other spelling of a negative number (`-128.`, `-1e2`, `-1_000`, `-inf`) is taken for an unknown option: the process exits
with status 2, whatever follows. -/
theorem C86_other_spellings_rejected (pf : Text → Option F) (pi : Text → Option Int) (T : List Opt) (P : Parser) (hT : (T, P) ∈ tables) (pre : List Item)
    (h : ∀ it ∈ pre, it.Proper T) (o : Opt) (ho : o ∈ T) (hk : o.kind = .float ∨ o.kind = .int) (c : Char) (s : Text)
    (hc : c ∉ ['-', 'h', 's', 'v']) (hb : ' ' ∉ '-' :: c :: s) (hn : ¬ NegNumber ('-' :: c :: s)) (rest : List Text) :
    parseArgs pf pi P (line pre ++ [o.long, '-' :: c :: s] ++ rest) = .exit 2 := by
  obtain ⟨rfl, hP⟩ := table_eq hT
  have hG := good_parsers hP
  have hk' : o.valued := by rcases hk with h | h <;> simp [Opt.valued, h]
  simp only [List.mem_cons, List.not_mem_nil, or_false, not_or] at hc
  obtain ⟨c1, c2⟩ : c ≠ '-' ∧ c ∉ ['h', 's', 'v'] := ⟨hc.1, by simp [hc]⟩
  unfold parseArgs
  rw [List.append_assoc, classify_line hG pre _ h]
  have hl : o.long ≠ ['-', '-'] := by simpa using long_ne hG ho []
  have hv : '-' :: c :: s ≠ ['-', '-'] := fun e => c1 (by cases e; rfl)
  have hcl : classify T ([o.long, '-' :: c :: s] ++ rest) =
      (classify T rest).map fun ks => .opt o o.long none :: .unknown :: ks := by
    rw [List.cons_append, List.cons_append, List.nil_append, classify, if_neg hl, parseOptional_long hG ho]
    simp only
    rw [classify, if_neg hv, parseOptional_other hG c1 (not_hsv hG c2), if_neg (fun e => hn (negLike_iff.1 e)), if_neg hb]
    simp only
    cases classify T rest <;> rfl
  rw [hcl]
  cases hr : classify T rest with
  | none => rfl
  | some ks =>
    simp only [Option.map_some]
    obtain ⟨i1, i2⟩ := consume_items (pf := pf) (pi := pi) pre (.opt o o.long none :: .unknown :: ks) (fun _ => none) false h
    by_cases hall : ∀ it ∈ pre, it.value pf pi ≠ none
    · rw [i1 hall]
      exact consume_noarg hk' _ _ (by intro t ks' e; cases e) _ _
    · exact i2 (by simpa only [Classical.not_forall, Classical.not_not, ne_eq, exists_prop] using hall)

end SG.Cli
