import Verif.Props.CommandCalls
/-! # C115, C116: abbreviated options, grouped flags and unknown options among arbitrary words

The words before and after are arbitrary, not only those of the forms of C85; only `--` must not stand before. -/
set_option linter.unusedSectionVars false

namespace SG.Cli
open Spec
variable {F : Type}

namespace Spec
/-- All long options of a command, `--help` included. -/
def longNames (T : List Opt) : List Text := "--help".toList :: T.map (·.long)

/-- The letters of the flags of a command, `-h` included. -/
def flagLetters (T : List Opt) : List Char := 'h' :: T.filterMap (·.short)

/-- A word `--c...` without an equals sign. -/
def LongWord (a : Text) : Prop := (∃ c s, a = '-' :: '-' :: c :: s) ∧ '=' ∉ a
end Spec

/-! ## Words are looked at one by one -/

theorem classify_words_append {P : Parser} : ∀ (pre ts : List Text), ['-', '-'] ∉ pre →
    classify P (pre ++ ts) = (classify P pre).bind fun ks => (classify P ts).map (ks ++ ·)
  | [], ts, _ => by
    simp only [List.nil_append, classify]
    cases h : classify P ts <;> simp
  | t :: pre, ts, h => by
    simp only [List.mem_cons, not_or] at h
    rw [List.cons_append, classify, classify, if_neg (fun e => h.1 e.symm), if_neg (fun e => h.1 e.symm)]
    cases hk : parseOptional P t with
    | none => rfl
    | some k =>
      simp only [classify_words_append pre ts h.2]
      cases classify P pre with
      | none => rfl
      | some ks => cases classify P ts <;> simp

/-- Words that are classified alike can be exchanged. -/
theorem parse_congr (pf : Text → Option F) (pi : Text → Option Int) {P : Parser} (pre post : List Text) (a b : Text) (hp : ['-', '-'] ∉ pre)
    (ha : a ≠ ['-', '-']) (hb : b ≠ ['-', '-']) (h : parseOptional P a = parseOptional P b) :
    parseArgs pf pi P (pre ++ a :: post) = parseArgs pf pi P (pre ++ b :: post) := by
  unfold parseArgs
  rw [classify_words_append pre _ hp, classify_words_append pre _ hp, classify, classify, if_neg ha, if_neg hb, h]

/-- With a word that is an error, the line is. -/
theorem parse_error (pf : Text → Option F) (pi : Text → Option Int) {P : Parser} (pre post : List Text) (a : Text) (hp : ['-', '-'] ∉ pre)
    (ha : a ≠ ['-', '-']) (h : parseOptional P a = none) : parseArgs pf pi P (pre ++ a :: post) = .exit 2 := by
  unfold parseArgs
  rw [classify_words_append pre _ hp, classify, if_neg ha, h]
  cases classify P pre <;> rfl

/-- What holds of the end of a line that does not begin with a value, holds of the line. -/
theorem consume_rel (pf : Text → Option F) (pi : Text → Option Int) (P : Parser) (R : Parsed F → Parsed F → Prop) (hR : ∀ n, R (.exit n) (.exit n))
    (A B : List Tok) (hA : ∀ t ks, A ≠ .arg t :: ks) (hB : ∀ t ks, B ≠ .arg t :: ks)
    (h : ∀ ns ex, R (consume pf pi P A ns ex) (consume pf pi P B ns ex)) :
    ∀ (n : Nat) (ks : List Tok), ks.length ≤ n → ∀ ns ex, R (consume pf pi P (ks ++ A) ns ex) (consume pf pi P (ks ++ B) ns ex)
  | _, [], _, ns, ex => h ns ex
  | n + 1, k :: ks, hn, ns, ex => by
    have ih := fun ks' (hk : ks'.length ≤ n) => consume_rel pf pi P R hR A B hA hB h n ks' hk
    have hn' : ks.length ≤ n := by simpa using hn
    rw [List.cons_append, List.cons_append]
    cases k with
    | arg t => rw [consume, consume]; exact ih ks hn' _ _
    | unknown => rw [consume, consume]; exact ih ks hn' _ _
    | dashes => rw [consume, consume]; exact ih ks hn' _ _
    | opt o s e =>
      cases e with
      | none =>
        by_cases hv : o.valued
        · rcases ks with _ | ⟨k, ks⟩
          · rw [List.nil_append, List.nil_append, consume_noarg hv _ _ hA, consume_noarg hv _ _ hB]
            exact hR 2
          · by_cases hk : ∃ t, k = .arg t
            · obtain ⟨t, rfl⟩ := hk
              rw [List.cons_append, List.cons_append, consume_value hv, consume_value hv]
              cases convert pf pi o.kind t with
              | none => exact hR 2
              | some v => exact ih ks (by simp at hn'; omega) _ _
            · rw [List.cons_append, List.cons_append, consume_noarg hv _ _ (fun t ks' e => hk ⟨t, by cases e; rfl⟩),
                consume_noarg hv _ _ (fun t ks' e => hk ⟨t, by cases e; rfl⟩)]
              exact hR 2
        · have : o.kind = .flag ∨ o.kind = .help := by
            unfold Opt.valued at hv
            cases hk : o.kind <;> simp [hk] at hv ⊢
          rcases this with hk | hk
          · rw [consume_flag hk, consume_flag hk]
            exact ih ks hn' _ _
          · rw [consume, consume, hk]
            exact hR 0
      | some e =>
        obtain ⟨sep, e⟩ := e
        rw [consume, consume]
        split
        · split
          · exact hR 2
          · cases cluster P o sep e with
            | none => exact hR 2
            | some r =>
              simp only
              cases takeFlags ns r.1 with
              | none => exact hR 0
              | some ns' => exact ih ks hn' _ _
        · cases convert pf pi o.kind e with
          | none => exact hR 2
          | some v => exact ih ks hn' _ _

/-! ## Abbreviations -/

theorem lookup_none {P : Parser} {t : Text} (h : ∀ x ∈ optMap P, x.1 ≠ t) : lookup P t = none := by
  cases hl : lookup P t with
  | none => rfl
  | some o => exact absurd rfl (h _ (lookup_some hl))

theorem longNames_eq (P : Parser) : longNames P = (helpOpt :: P).map (·.long) := rfl

/-- The options a word begins. -/
theorem long_keys (P : Parser) {p : Text} (hp : ∃ c s, p = '-' :: '-' :: c :: s) :
    (optMap P).filter (fun x => p.isPrefixOf x.1) = ((helpOpt :: P).filter fun o => p.isPrefixOf o.long).map fun o => (o.long, o) := by
  obtain ⟨c, s, rfl⟩ := hp
  unfold optMap
  induction (helpOpt :: P) with
  | nil => rfl
  | cons o l ih =>
    rw [List.flatMap_cons, List.filter_append, ih, List.filter_append]
    cases o.short with
    | none =>
      rw [List.filter_nil, List.nil_append, List.filter_cons, List.filter_nil, List.filter_cons]
      split <;> rfl
    | some d =>
      have : List.filter (fun x : Text × Opt => ('-' :: '-' :: c :: s).isPrefixOf x.1) [(['-', d], o)] = [] := by
        simp [List.isPrefixOf]
      simp only [this]
      rw [List.nil_append, List.filter_cons, List.filter_nil, List.filter_cons]
      split <;> rfl

/-- `a` or `a=v` -/
def withValue (a : Text) : Option Text → Text
  | none => a
  | some v => a ++ '=' :: v

theorem partEq_with {a : Text} (h : '=' ∉ a) (w : Option Text) : partEq (withValue a w) = (a, w) := by
  cases w with
  | some v => exact partEq_eq h
  | none =>
    have h2 := partEq_none h
    have h1 : (partEq a).1 = a := by
      unfold partEq
      simp only
      clear h2
      induction a with
      | nil => rfl
      | cons b a ih =>
        simp only [List.mem_cons, not_or] at h
        rw [List.takeWhile_cons, if_pos (by simpa using fun e => h.1 e.symm), ih h.2]
    exact Prod.ext h1 h2

theorem withValue_long {a : Text} (h : LongWord a) (w : Option Text) : ∃ c s, withValue a w = '-' :: '-' :: c :: s := by
  obtain ⟨⟨c, s, rfl⟩, -⟩ := h
  cases w with
  | none => exact ⟨c, s, rfl⟩
  | some v => exact ⟨c, s ++ '=' :: v, rfl⟩

theorem key_ne {P : Parser} (hP : Good P) {a : Text} (ha : LongWord a) (hn : a ∉ longNames P) (w : Option Text) :
    lookup P (withValue a w) = none := by
  apply lookup_none
  intro x hx e
  cases w with
  | some v => exact key_noEq hP hx (by rw [e]; simp [withValue])
  | none =>
    obtain ⟨⟨c, s, rfl⟩, -⟩ := ha
    obtain ⟨ho, h | ⟨d, -, h⟩⟩ := mem_optMap.1 hx
    · exact hn (by rw [longNames_eq, List.mem_map]; exact ⟨x.2, ho, by rw [← h, e]; rfl⟩)
    · rw [h] at e
      simp [withValue] at e

theorem parse_long {P : Parser} (hP : Good P) {a : Text} (ha : LongWord a) (hn : a ∉ longNames P) (w : Option Text) :
    parseOptional P (withValue a w) = parseAbbrev P (withValue a w) := by
  obtain ⟨c, s, e⟩ := withValue_long ha w
  unfold parseOptional
  rw [if_neg (by rw [e]; simp), key_ne hP ha hn w]
  simp only
  rw [if_neg (by rw [e]; simp), partEq_with ha.2]
  cases w with
  | none => rfl
  | some v =>
    simp only
    have := key_ne hP ha hn none
    rw [show withValue a none = a from rfl] at this
    rw [this]

theorem candidates_long {P : Parser} {a : Text} (ha : LongWord a) (w : Option Text) :
    candidates P (withValue a w) =
      ((helpOpt :: P).filter fun o => a.isPrefixOf o.long).map fun o => .opt o o.long (w.map fun e => (true, e)) := by
  obtain ⟨c, s, e⟩ := withValue_long ha w
  unfold candidates
  rw [if_pos (by rw [e]; rfl), partEq_with ha.2]
  simp only
  rw [long_keys P ha.1, List.map_map]
  rfl

/-- A full option. -/
theorem parse_full {P : Parser} (hP : Good P) {o : Opt} (ho : o ∈ helpOpt :: P) (w : Option Text) :
    parseOptional P (withValue o.long w) = some (.opt o o.long (w.map fun e => (true, e))) := by
  obtain ⟨c, n, e⟩ := hP.long o ho
  have hq := hP.noEq o ho
  cases w with
  | none =>
    unfold parseOptional
    rw [if_neg (by simp [withValue, e]), show withValue o.long none = o.long from rfl, lookup_long hP ho]
    rfl
  | some v =>
    have hl : lookup P (withValue o.long (some v)) = none :=
      lookup_none fun x hx e' => key_noEq hP hx (by rw [e']; simp [withValue])
    unfold parseOptional
    rw [if_neg (by simp [withValue, e]), hl]
    simp only
    rw [if_neg (by simp [withValue, e]), partEq_with hq]
    simp only [lookup_long hP ho]
    rfl

theorem filter_unique {α : Type} {p : α → Bool} : ∀ {l : List α} {x : α}, l.Nodup → x ∈ l → (∀ y ∈ l, p y = true ↔ y = x) → l.filter p = [x]
  | y :: l, x, hn, hx, h => by
    rw [List.nodup_cons] at hn
    rw [List.filter_cons]
    by_cases e : y = x
    · subst e
      rw [if_pos ((h y (by simp)).2 rfl), List.filter_eq_nil_iff.2]
      intro z hz hp
      have := (h z (by simp [hz])).1 hp
      exact hn.1 (this ▸ hz)
    · rw [if_neg (fun hp => e ((h y (by simp)).1 hp))]
      exact filter_unique hn.2 ((List.mem_cons.1 hx).resolve_left fun e' => e e'.symm) fun z hz => h z (by simp [hz])

theorem long_nodup {P : Parser} (hP : Good P) : (longNames P).Nodup := by
  have h := hP.nodup
  rw [longNames_eq]
  refine List.Sublist.nodup ?_ h
  unfold optMap
  induction (helpOpt :: P) with
  | nil => exact List.Sublist.slnil
  | cons o l ih =>
    rw [List.flatMap_cons, List.map_append, List.map_append, List.append_assoc, List.map_cons]
    exact (List.Sublist.cons_cons _ ih).trans (List.sublist_append_right _ _)

theorem nodup_of_map {α β : Type} {f : α → β} {l : List α} (h : (l.map f).Nodup) : l.Nodup := by
  induction l with
  | nil => exact List.nodup_nil
  | cons a l ih =>
    rw [List.map_cons, List.nodup_cons] at h
    exact List.nodup_cons.2 ⟨fun hm => h.1 (List.mem_map.2 ⟨a, hm, rfl⟩), ih h.2⟩

/-- **C115** (abbreviations): a beginning of exactly one long option means this option, with or without `=value`, whatever the other words are. -/
theorem C115_abbreviation (pf : Text → Option F) (pi : Text → Option Int) (T : List Opt) (P : Parser) (hT : (T, P) ∈ tables) (pre post : List Text)
    (hpre : "--".toList ∉ pre) (a n : Text) (ha : LongWord a) (hn : n ∈ longNames T) (hu : ∀ m ∈ longNames T, a <+: m ↔ m = n) :
    parseArgs pf pi P (pre ++ a :: post) = parseArgs pf pi P (pre ++ n :: post) ∧
    ∀ v, parseArgs pf pi P (pre ++ (a ++ '=' :: v) :: post) = parseArgs pf pi P (pre ++ (n ++ '=' :: v) :: post) := by
  obtain ⟨rfl, hP⟩ := table_eq hT
  have hG := good_parsers hP
  obtain ⟨o, ho, rfl⟩ := List.mem_map.1 (show n ∈ (helpOpt :: T).map (·.long) from hn)
  have hnd : (helpOpt :: T).Nodup := nodup_of_map (f := fun o : Opt => o.long) (longNames_eq T ▸ long_nodup hG)
  have main : ∀ w, parseArgs pf pi T (pre ++ withValue a w :: post) = parseArgs pf pi T (pre ++ withValue o.long w :: post) := by
    intro w
    by_cases hin : a ∈ longNames T
    · rw [(hu a hin).1 (List.prefix_refl a)]
    · refine parse_congr pf pi pre post _ _ hpre ?_ ?_ ?_
      · obtain ⟨c, s, e⟩ := withValue_long ha w; rw [e]; simp
      · obtain ⟨c, n, e⟩ := hG.long o ho
        cases w <;> simp [withValue, e]
      · rw [parse_full hG ho, parse_long hG ha hin]
        unfold parseAbbrev
        rw [candidates_long ha, filter_unique (x := o) hnd ho]
        · rfl
        · intro o' ho'
          rw [List.isPrefixOf_iff_prefix, hu o'.long (List.mem_map.2 ⟨o', ho', rfl⟩)]
          refine ⟨fun e => ?_, fun e => by rw [e]⟩
          have h1 := lookup_long hG ho'
          rw [e, lookup_long hG ho] at h1
          exact (Option.some.inj h1).symm
  exact ⟨main none, fun v => main (some v)⟩

theorem two_of_filter {α : Type} {p : α → Bool} {l : List α} {x y : α} (hx : x ∈ l) (hy : y ∈ l) (px : p x = true) (py : p y = true) (h : x ≠ y) :
    ∃ a b r, l.filter p = a :: b :: r := by
  have mx : x ∈ l.filter p := List.mem_filter.2 ⟨hx, px⟩
  have my : y ∈ l.filter p := List.mem_filter.2 ⟨hy, py⟩
  rcases hl : l.filter p with _ | ⟨a, _ | ⟨b, r⟩⟩
  · rw [hl] at mx; cases mx
  · rw [hl] at mx my
    exact absurd ((List.mem_singleton.1 mx).trans (List.mem_singleton.1 my).symm) h
  · exact ⟨a, b, r, rfl⟩

/-- **C115** (ambiguity): a beginning of several long options that is none of them is a usage error, whatever the other words are. -/
theorem C115_ambiguous (pf : Text → Option F) (pi : Text → Option Int) (T : List Opt) (P : Parser) (hT : (T, P) ∈ tables) (pre post : List Text)
    (hpre : "--".toList ∉ pre) (a m n : Text) (ha : LongWord a) (hin : a ∉ longNames T) (hm : m ∈ longNames T) (hn : n ∈ longNames T) (hne : m ≠ n)
    (h1 : a <+: m) (h2 : a <+: n) :
    parseArgs pf pi P (pre ++ a :: post) = .exit 2 ∧ ∀ v, parseArgs pf pi P (pre ++ (a ++ '=' :: v) :: post) = .exit 2 := by
  obtain ⟨rfl, hP⟩ := table_eq hT
  have hG := good_parsers hP
  obtain ⟨x, hx, rfl⟩ := List.mem_map.1 (show m ∈ (helpOpt :: T).map (·.long) from hm)
  obtain ⟨y, hy, rfl⟩ := List.mem_map.1 (show n ∈ (helpOpt :: T).map (·.long) from hn)
  have main : ∀ w, parseArgs pf pi T (pre ++ withValue a w :: post) = .exit 2 := by
    intro w
    refine parse_error pf pi pre post _ hpre ?_ ?_
    · obtain ⟨c, s, e⟩ := withValue_long ha w; rw [e]; simp
    · rw [parse_long hG ha hin]
      unfold parseAbbrev
      obtain ⟨p, q, r, e⟩ := two_of_filter (p := fun o : Opt => a.isPrefixOf o.long) hx hy (List.isPrefixOf_iff_prefix.2 h1)
        (List.isPrefixOf_iff_prefix.2 h2) (fun e => hne (by rw [e]))
      rw [candidates_long ha, e]
      rfl
  exact ⟨main none, fun v => main (some v)⟩

/-! ## Grouped flags -/

theorem flag_of_letter {P : Parser} {c : Char} (h : c ∈ flagLetters P) : ∃ o ∈ helpOpt :: P, o.short = some c := by
  rcases List.mem_cons.1 h with rfl | h
  · exact ⟨helpOpt, by simp, rfl⟩
  · obtain ⟨o, ho, e⟩ := List.mem_filterMap.1 h
    exact ⟨o, List.mem_cons.2 (.inr ho), e⟩

theorem letter_of_lookup {P : Parser} (hP : Good P) {c : Char} {o : Opt} (h : lookup P ['-', c] = some o) : c ∈ flagLetters P := by
  obtain ⟨ho, h | ⟨d, hd, h⟩⟩ := mem_optMap.1 (lookup_some h)
  · obtain ⟨a, n, e⟩ := hP.long _ ho
    rw [e] at h
    cases h
  · cases h
    rcases List.mem_cons.1 ho with rfl | ho
    · cases hd; exact List.mem_cons.2 (.inl rfl)
    · exact List.mem_cons.2 (.inr (List.mem_filterMap.2 ⟨o, ho, hd⟩))

theorem flag_kind {P : Parser} (hP : Good P) {o : Opt} (ho : o ∈ helpOpt :: P) {c : Char} (hc : o.short = some c) : o.kind = .help ∨ o.kind = .flag := by
  rcases List.mem_cons.1 ho with rfl | ho
  · exact .inl rfl
  · exact .inr (hP.shortFlag o ho (by rw [hc]; simp))

theorem letter_hsv {P : Parser} (hP : Good P) {c : Char} (h : c ∈ flagLetters P) : c ∈ ['h', 's', 'v'] := by
  obtain ⟨o, ho, e⟩ := flag_of_letter h
  exact hP.short o ho c e

theorem filterMap_unique {α β : Type} [DecidableEq α] {γ : Type} (g : α × β → Option γ) (z : γ) : ∀ (l : List (α × β)) (x : α × β),
    (l.map (·.1)).Nodup → x ∈ l → g x = some z → (∀ y ∈ l, y.1 ≠ x.1 → g y = none) → l.filterMap g = [z]
  | y :: l, x, hn, hx, hg, h => by
    rw [List.map_cons, List.nodup_cons] at hn
    rcases List.mem_cons.1 hx with rfl | hx
    · rw [List.filterMap_cons_some hg, List.filterMap_eq_nil_iff.2]
      intro y hy
      exact h y (by simp [hy]) fun e => hn.1 (e ▸ List.mem_map.2 ⟨y, hy, rfl⟩)
    · rw [List.filterMap_cons_none (h y (by simp) fun e => hn.1 (e ▸ List.mem_map.2 ⟨x, hx, rfl⟩))]
      exact filterMap_unique g z l x hn.2 hx hg fun w hw => h w (by simp [hw])

/-- How a word `-c...` with the letter of a flag is seen. -/
theorem parse_group {P : Parser} (hP : Good P) {o : Opt} (ho : o ∈ helpOpt :: P) {c : Char} (hc : o.short = some c) (d : Char) (l : Text) :
    ∃ sep e, parseOptional P ('-' :: c :: d :: l) = some (.opt o ['-', c] (some (sep, e))) ∧
      (d ≠ '=' → sep = false ∧ e = d :: l) ∧ (d = '=' → sep = true) := by
  have hcm := hP.short o ho c hc
  have hcd : c ≠ '-' := by rintro rfl; revert hcm; decide
  have hce : c ≠ '=' := by rintro rfl; revert hcm; decide
  have hl : lookup P ('-' :: c :: d :: l) = none := by
    apply lookup_none
    intro x hx e
    obtain ⟨ho', h | ⟨b, -, h⟩⟩ := mem_optMap.1 hx
    · obtain ⟨a, n, e'⟩ := hP.long _ ho'
      rw [h, e'] at e
      simp only [List.cons.injEq] at e
      exact hcd e.2.1.symm
    · rw [h] at e; simp at e
  have hab : parseAbbrev P ('-' :: c :: d :: l) = some (.opt o ['-', c] (some (false, d :: l))) := by
    unfold parseAbbrev candidates
    rw [if_neg (by simpa using hcd)]
    rw [filterMap_unique _ (.opt o ['-', c] (some (false, d :: l))) (optMap P) (['-', c], o) hP.nodup
      (mem_optMap.2 ⟨ho, .inr ⟨c, hc, rfl⟩⟩) (by simp)]
    intro x hx hne
    rw [if_neg (by simpa using hne), if_neg]
    intro hb
    obtain ⟨r, hr⟩ := List.isPrefixOf_iff_prefix.1 hb
    obtain ⟨ho', h | ⟨b, -, h⟩⟩ := mem_optMap.1 hx
    · obtain ⟨a, n, e'⟩ := hP.long _ ho'
      rw [h, e'] at hr
      simp only [List.cons_append, List.cons.injEq] at hr
      exact hcd hr.2.1
    · rw [h] at hr; simp at hr
  by_cases hd : d = '='
  · subst hd
    refine ⟨true, l, ?_, fun h => absurd rfl h, fun _ => rfl⟩
    unfold parseOptional
    rw [if_neg (by simp), hl]
    simp only
    rw [if_neg (by simp)]
    have : partEq ('-' :: c :: '=' :: l) = (['-', c], some l) :=
      partEq_eq (t := ['-', c]) (v := l) (by simp only [List.mem_cons, List.not_mem_nil, or_false, not_or]; exact ⟨by decide, fun e => hce e.symm⟩)
    rw [this]
    simp only [lookup_short hP ho hc]
  · refine ⟨false, d :: l, ?_, fun _ => ⟨rfl, rfl⟩, fun h => absurd h hd⟩
    unfold parseOptional
    rw [if_neg (by simp), hl]
    simp only
    rw [if_neg (by simp)]
    cases hq : (partEq ('-' :: c :: d :: l)).2 with
    | none => exact hab
    | some e =>
      simp only
      have : lookup P (partEq ('-' :: c :: d :: l)).1 = none := by
        have e1 : (partEq ('-' :: c :: d :: l)).1 = '-' :: c :: d :: l.takeWhile (· ≠ '=') := by
          unfold partEq
          simp only
          rw [List.takeWhile_cons, if_pos (by decide), List.takeWhile_cons, if_pos (by simpa using hce), List.takeWhile_cons,
            if_pos (by simpa using hd)]
        rw [e1]
        apply lookup_none
        intro x hx e
        obtain ⟨ho', h | ⟨b, -, h⟩⟩ := mem_optMap.1 hx
        · obtain ⟨a, n, e'⟩ := hP.long _ ho'
          rw [h, e'] at e
          simp only [List.cons.injEq] at e
          exact hcd e.2.1.symm
        · rw [h] at e; simp at e
      rw [this]
      exact hab

/-- The group of known letters. -/
theorem cluster_known {P : Parser} (hP : Good P) : ∀ (l : Text) (o : Opt) (d : Char), (∀ c ∈ d :: l, c ∈ flagLetters P) →
    ∃ os, cluster P o false (d :: l) = some (o :: os, false) ∧ os.map some = (d :: l).map fun c => lookup P ['-', c]
  | [], o, d, h => by
    obtain ⟨o', ho', e'⟩ := flag_of_letter (h d (by simp))
    have hd : d ≠ '-' := by rintro rfl; have := letter_hsv hP (h '-' (by simp)); revert this; decide
    have hl := lookup_short hP ho' e'
    refine ⟨[o'], ?_, by simp [hl]⟩
    rw [cluster, if_neg (by simpa using hd), hl]
  | b :: l, o, d, h => by
    obtain ⟨o', ho', e'⟩ := flag_of_letter (h d (by simp))
    have hd : d ≠ '-' := by rintro rfl; have := letter_hsv hP (h '-' (by simp)); revert this; decide
    have hb : b ≠ '=' := by rintro rfl; have := letter_hsv hP (h '=' (by simp)); revert this; decide
    have hl := lookup_short hP ho' e'
    obtain ⟨os, e1, e2⟩ := cluster_known hP l o' b fun c hc => h c (List.mem_cons.2 (.inr hc))
    refine ⟨o' :: os, ?_, by rw [List.map_cons, e2]; simp [hl]⟩
    rw [cluster, if_neg (by simpa using hd), hl]
    simp only
    split
    · rename_i he; cases he
    · rename_i he; cases he; exact absurd rfl hb
    · rw [e1]; rfl

/-- A letter that is none of a flag: an error, or left over. -/
theorem cluster_unknown {P : Parser} (hP : Good P) : ∀ (l : Text) (o : Opt), (∃ c ∈ l, c ∉ flagLetters P) →
    cluster P o false l = none ∨ ∃ os, cluster P o false l = some (os, true)
  | d :: l, o, h => by
    rw [cluster]
    split
    · exact .inl rfl
    · cases hl : lookup P ['-', d] with
      | none => exact .inr ⟨[o], rfl⟩
      | some o' =>
        have hd := letter_of_lookup hP hl
        have hl' : ∃ c ∈ l, c ∉ flagLetters P := by
          obtain ⟨c, hc, hn⟩ := h
          rcases List.mem_cons.1 hc with rfl | hc
          · exact absurd hd hn
          · exact ⟨c, hc, hn⟩
        simp only
        split
        · obtain ⟨c, hc, -⟩ := hl'; cases hc
        · exact .inl rfl
        · rcases cluster_unknown hP l o' hl' with e | ⟨os, e⟩
          · rw [e]; exact .inl rfl
          · rw [e]; exact .inr ⟨o :: os, rfl⟩

/-- Flags one after another. -/
theorem consume_flags (pf : Text → Option F) (pi : Text → Option Int) (P : Parser) (ks : List Tok) (ex : Bool) :
    ∀ (os : List (Opt × Text)) (ns : Ns F), (∀ o ∈ os, o.1.kind = .help ∨ o.1.kind = .flag) →
    consume pf pi P (os.map (fun o => .opt o.1 o.2 none) ++ ks) ns ex =
      match takeFlags ns (os.map (·.1)) with
      | none => .exit 0
      | some ns' => consume pf pi P ks ns' ex
  | [], ns, _ => rfl
  | o :: os, ns, h => by
    rw [List.map_cons, List.cons_append, List.map_cons, takeFlags]
    rcases h o (by simp) with hk | hk
    · rw [if_pos hk, consume, hk]
    · rw [if_neg (by rw [hk]; decide), consume_flag hk, consume_flags pf pi P ks ex os _ fun x hx => h x (by simp [hx])]

theorem classify_shorts {P : Parser} (hP : Good P) (ts : List Text) : ∀ (l : Text) (os : List Opt), os.map some = l.map (fun c => lookup P ['-', c]) →
    classify P (l.map (fun c => ['-', c]) ++ ts) = (classify P ts).map fun ks => ((os.zip l).map fun x => Tok.opt x.1 ['-', x.2] none) ++ ks
  | [], [], _ => by cases h : classify P ts <;> simp [h]
  | c :: l, o :: os, h => by
    simp only [List.map_cons, List.cons.injEq] at h
    have hc : c ≠ '-' := by
      rintro rfl
      have := letter_hsv hP (letter_of_lookup hP h.1.symm)
      revert this; decide
    rw [List.map_cons, List.cons_append, classify, if_neg (by simpa using hc)]
    have : parseOptional P ['-', c] = some (.opt o ['-', c] none) := by
      unfold parseOptional
      rw [if_neg (by simp), ← h.1]
    rw [this]
    simp only [classify_shorts hP ts l os h.2]
    cases classify P ts <;> rfl
  | [], o :: os, h => by simp at h
  | c :: l, [], h => by simp at h

/-- **C115** (grouped flags): `-sv` means `-s -v`, for any two or more letters of flags in any order, whatever the other words are. -/
theorem C115_grouped_flags (pf : Text → Option F) (pi : Text → Option Int) (T : List Opt) (P : Parser) (hT : (T, P) ∈ tables) (pre post : List Text)
    (hpre : "--".toList ∉ pre) (l : Text) (h2 : 2 ≤ l.length) (hl : ∀ c ∈ l, c ∈ flagLetters T) :
    parseArgs pf pi P (pre ++ ('-' :: l) :: post) = parseArgs pf pi P (pre ++ l.map (fun c => ['-', c]) ++ post) := by
  obtain ⟨rfl, hP⟩ := table_eq hT
  have hG := good_parsers hP
  rcases l with _ | ⟨c, _ | ⟨d, l⟩⟩
  · simp at h2
  · simp at h2
  obtain ⟨o, ho, hc⟩ := flag_of_letter (hl c (by simp))
  have hcm := letter_hsv hG (hl c (by simp))
  have hd : d ≠ '=' := by rintro rfl; have := letter_hsv hG (hl '=' (by simp)); revert this; decide
  obtain ⟨sep, e, hw, h3, -⟩ := parse_group hG ho hc d l
  obtain ⟨rfl, rfl⟩ := h3 hd
  obtain ⟨os, k1, k2⟩ := cluster_known hG l o d fun x hx => hl x (List.mem_cons.2 (.inr hx))
  have hos : (o :: os).map some = (c :: d :: l).map fun c => lookup T ['-', c] := by
    rw [List.map_cons, k2, List.map_cons (l := d :: l), lookup_short hG ho hc]
  unfold parseArgs
  rw [List.append_assoc, classify_words_append pre _ hpre, classify_words_append pre _ hpre, classify,
    if_neg (by simp only [List.cons.injEq]; rintro ⟨-, h, -⟩; rw [h] at hcm; revert hcm; decide), hw,
    classify_shorts hG post _ _ hos]
  cases classify T pre with
  | none => rfl
  | some ks =>
    cases classify T post with
    | none => rfl
    | some rs =>
      simp only [Option.map_some, Option.bind_some]
      refine consume_rel pf pi T Eq (fun _ => rfl) _ _ (by simp) ?_ ?_ ks.length ks (Nat.le_refl _) _ _
      · intro t ks' e
        simp at e
      · intro ns ex
        have hkind : ∀ x ∈ (o :: os).zip (c :: d :: l), x.1.kind = .help ∨ x.1.kind = .flag := by
          intro x hx
          have hm : some x.1 ∈ (o :: os).map some := List.mem_map.2 ⟨x.1, (List.of_mem_zip hx).1, rfl⟩
          rw [hos] at hm
          obtain ⟨b, hb, e⟩ := List.mem_map.1 hm
          obtain ⟨o', ho', e'⟩ := flag_of_letter (hl b hb)
          rw [lookup_short hG ho' e'] at e
          cases e
          exact flag_kind hG ho' e'
        have hlen : (o :: os).length = (c :: d :: l).length := by simpa using congrArg List.length hos
        have := consume_flags pf pi T rs ex (((o :: os).zip (c :: d :: l)).map fun x => (x.1, ['-', x.2])) ns (by
          intro x hx
          obtain ⟨y, hy, rfl⟩ := List.mem_map.1 hx
          exact hkind y hy)
        rw [List.map_map, List.map_map] at this
        have e1 : ((o :: os).zip (c :: d :: l)).map ((·.1) ∘ fun x => (x.1, ['-', x.2])) = o :: os := by
          exact List.map_fst_zip (Nat.le_of_eq hlen)
        rw [e1] at this
        rw [show (List.map (fun x => Tok.opt x.1 ['-', x.2] none) ((o :: os).zip (c :: d :: l))) =
          List.map ((fun o => Tok.opt o.1 o.2 none) ∘ fun x => (x.1, ['-', x.2])) ((o :: os).zip (c :: d :: l)) from rfl, this]
        rw [consume, if_pos (flag_kind hG ho hc), if_neg (by rintro h; simp at h; rw [h] at hcm; revert hcm; decide), k1]
        simp only [Bool.or_false]
        cases takeFlags ns (o :: os) <;> rfl

/-! ## Unknown options -/

theorem unknown_parse (pf : Text → Option F) (pi : Text → Option Int) {P : Parser} (pre post : List Text) (a : Text) (hp : ['-', '-'] ∉ pre)
    (ha : a ≠ ['-', '-']) (k : Tok) (hk : parseOptional P a = some k) (hna : ∀ t, k ≠ .arg t)
    (h : ∀ ks ns ex ns', consume pf pi P (k :: ks) ns ex ≠ .ok ns') : ∃ n, parseArgs pf pi P (pre ++ a :: post) = .exit n := by
  unfold parseArgs
  rw [classify_words_append pre _ hp, classify, if_neg ha, hk]
  cases classify P pre with
  | none => exact ⟨2, rfl⟩
  | some ks =>
    simp only
    cases classify P post with
    | none => exact ⟨2, rfl⟩
    | some rs =>
      have hn : ∀ t ks, k :: rs ≠ .arg t :: ks := fun t ks e => hna t (by cases e; rfl)
      have := consume_rel pf pi P (fun r _ => ∃ n, r = .exit n) (fun n => ⟨n, rfl⟩) (k :: rs) (k :: rs) hn hn (fun ns ex => by
        cases hr : consume pf pi P (k :: rs) ns ex with
        | exit n => exact ⟨n, rfl⟩
        | ok ns' => exact absurd hr (h _ _ _ _)) ks.length ks (Nat.le_refl _) (fun _ => none) false
      exact this

/-- **C116** (groups with another character): with a word `-c...`, `c` the letter of a flag, that has a character which is not, the command does not
go to work, whatever the other words are. -/
theorem C116_bad_group (pf : Text → Option F) (pi : Text → Option Int) (T : List Opt) (P : Parser) (hT : (T, P) ∈ tables) (pre post : List Text)
    (hpre : "--".toList ∉ pre) (c : Char) (l : Text) (hc : c ∈ flagLetters T) (hl : ∃ d ∈ l, d ∉ flagLetters T) :
    ∃ n, parseArgs pf pi P (pre ++ ('-' :: c :: l) :: post) = .exit n := by
  obtain ⟨rfl, hP⟩ := table_eq hT
  have hG := good_parsers hP
  obtain ⟨o, ho, hcs⟩ := flag_of_letter hc
  have hcm := letter_hsv hG hc
  rcases l with _ | ⟨d, l⟩
  · obtain ⟨d, hd, -⟩ := hl; cases hd
  obtain ⟨sep, e, hw, h1, h2⟩ := parse_group hG ho hcs d l
  refine unknown_parse pf pi pre post _ hpre (by simp) _ hw (by intro t h; cases h) ?_
  intro ks ns ex ns'
  rw [consume, if_pos (flag_kind hG ho hcs), if_neg (by rintro h; simp at h; rw [h] at hcm; revert hcm; decide)]
  by_cases hd : d = '='
  · rw [h2 hd]
    have : cluster T o true e = none := by
      cases e with
      | nil => rfl
      | cons x e => rw [cluster]; simp
    rw [this]
    intro h; cases h
  · obtain ⟨rfl, rfl⟩ := h1 hd
    rcases cluster_unknown hG (d :: l) o hl with e | ⟨os, e⟩
    · rw [e]; intro h; cases h
    · rw [e]
      simp only
      cases takeFlags ns os with
      | none => intro h; cases h
      | some ns1 =>
        simp only [Bool.or_true]
        exact consume_extra pf pi T _ ks (Nat.le_refl _) _ _

/-- **C116** (unknown options): with a word that begins with a minus sign, has no blank, is not a plain negative number, and is neither an option, with
or without `=value`, nor a beginning of a long one, nor begins with the letter of a flag, the command does not go to work, whatever the other words are. -/
theorem C116_unknown_option (pf : Text → Option F) (pi : Text → Option Int) (T : List Opt) (P : Parser) (hT : (T, P) ∈ tables) (pre post : List Text)
    (hpre : "--".toList ∉ pre) (c : Char) (s : Text) (hb : ' ' ∉ '-' :: c :: s) (hn : ¬ NegNumber ('-' :: c :: s)) (hd : c :: s ≠ "-".toList)
    (hc : c ∉ flagLetters T) (hu : c = '-' → ∀ n ∈ longNames T, ¬ (('-' :: c :: s).takeWhile (· ≠ '=')) <+: n) :
    ∃ n, parseArgs pf pi P (pre ++ ('-' :: c :: s) :: post) = .exit n := by
  obtain ⟨rfl, hP⟩ := table_eq hT
  have hG := good_parsers hP
  have hneg : negLike ('-' :: c :: s) = false := by
    cases e : negLike ('-' :: c :: s) with
    | false => rfl
    | true => exact absurd (negLike_iff.1 e) hn
  have hk : parseOptional T ('-' :: c :: s) = some .unknown := by
    by_cases h1 : c = '-'
    · subst h1
      rcases s with _ | ⟨d, s⟩
      · exact absurd rfl hd
      have hq : ∀ x ∈ optMap T, ¬ (partEq ('-' :: '-' :: d :: s)).1 <+: x.1 := by
        intro x hx hp
        obtain ⟨ho, h | ⟨b, hb', h⟩⟩ := mem_optMap.1 hx
        · exact hu rfl x.2.long (List.mem_map.2 ⟨x.2, ho, rfl⟩) (h ▸ hp)
        · rw [h] at hp
          obtain ⟨r, hr⟩ := hp
          have e1 : (partEq ('-' :: '-' :: d :: s)).1 = '-' :: '-' :: (d :: s).takeWhile (· ≠ '=') := by
            unfold partEq
            simp only
            rw [List.takeWhile_cons, if_pos (by decide), List.takeWhile_cons, if_pos (by decide)]
          rw [e1] at hr
          simp only [List.cons_append, List.cons.injEq] at hr
          have := hG.short _ ho b hb'
          rw [← hr.2.1] at this
          revert this; decide
      have hpt : (partEq ('-' :: '-' :: d :: s)).1 <+: '-' :: '-' :: d :: s := List.takeWhile_prefix _
      have hl : ∀ t, (partEq ('-' :: '-' :: d :: s)).1 <+: t → lookup T t = none := fun t ht => lookup_none fun x hx e => hq x hx (e ▸ ht)
      have hab : parseAbbrev T ('-' :: '-' :: d :: s) = some .unknown := by
        unfold parseAbbrev
        have : candidates T ('-' :: '-' :: d :: s) = [] := by
          unfold candidates
          rw [if_pos (by rfl)]
          simp only
          rw [List.map_eq_nil_iff, List.filter_eq_nil_iff]
          intro x hx hb'
          exact hq x hx (List.isPrefixOf_iff_prefix.1 hb')
        rw [this, hneg]
        simp only
        rw [if_neg (by decide), if_neg hb]
      unfold parseOptional
      rw [if_neg (by simp), hl _ hpt]
      simp only
      rw [if_neg (by simp)]
      cases hq2 : (partEq ('-' :: '-' :: d :: s)).2 with
      | none => exact hab
      | some e =>
        simp only
        rw [hl _ (List.prefix_refl _)]
        exact hab
    · rw [parseOptional_other hG h1, hneg, if_neg (by decide), if_neg hb]
      intro o ho e
      refine hc ?_
      rcases List.mem_cons.1 ho with rfl | ho
      · cases e; exact List.mem_cons.2 (.inl rfl)
      · exact List.mem_cons.2 (.inr (List.mem_filterMap.2 ⟨o, ho, e⟩))
  refine unknown_parse pf pi pre post _ hpre (by intro e; cases e; exact hd rfl) _ hk (by intro t h; cases h) ?_
  intro ks ns ex ns'
  rw [consume]
  exact consume_extra pf pi T _ ks (Nat.le_refl _) _ _

namespace ExWords
variable (pf : Text → Option F) (pi : Text → Option Int)

/-- C115: `--out x`, `--out=x` and `--o=x` after an option that is not one -/
example : parseArgs pf pi mkgridParser ["--xyz".toList, "--out".toList, "x".toList] = parseArgs pf pi mkgridParser ["--xyz".toList, "--outfile".toList, "x".toList] :=
  (C115_abbreviation pf pi mkgridOptions mkgridParser (by simp [tables]) ["--xyz".toList] ["x".toList] (by decide) "--out".toList "--outfile".toList
    ⟨⟨'o', "ut".toList, rfl⟩, by decide⟩ (by decide +kernel) (by decide +kernel)).1
example : parseArgs pf pi regridParser ["-v".toList, "--o=x".toList] = parseArgs pf pi regridParser ["-v".toList, "--outfile=x".toList] :=
  (C115_abbreviation pf pi regridOptions regridParser (by simp [tables]) ["-v".toList] [] (by decide) "--o".toList "--outfile".toList
    ⟨⟨'o', [], rfl⟩, by decide⟩ (by decide +kernel) (by decide +kernel)).2 "x".toList
/-- `--he` is `--help` -/
example : parseArgs pf pi mkgridParser ["--he".toList] = parseArgs pf pi mkgridParser ["--help".toList] :=
  (C115_abbreviation pf pi mkgridOptions mkgridParser (by simp [tables]) [] [] (by decide) "--he".toList "--help".toList
    ⟨⟨'h', "e".toList, rfl⟩, by decide⟩ (by decide +kernel) (by decide +kernel)).1
/-- `--lon` could be `--lon1` or `--lon2` -/
example : parseArgs pf pi mkgridParser ["-h".toList, "--lon".toList, "1".toList] = .exit 2 :=
  (C115_ambiguous pf pi mkgridOptions mkgridParser (by simp [tables]) ["-h".toList] ["1".toList] (by decide) "--lon".toList "--lon1".toList
    "--lon2".toList ⟨⟨'l', "on".toList, rfl⟩, by decide⟩ (by decide +kernel) (by decide +kernel) (by decide +kernel) (by decide) (by decide) (by decide)).1
/-- `-svs` -/
example : parseArgs pf pi regridParser ["--ni".toList, "2".toList, "-svs".toList, "x".toList] =
    parseArgs pf pi regridParser ["--ni".toList, "2".toList, "-s".toList, "-v".toList, "-s".toList, "x".toList] :=
  C115_grouped_flags pf pi regridOptions regridParser (by simp [tables]) ["--ni".toList, "2".toList] ["x".toList] (by decide) "svs".toList (by decide)
    (by decide +kernel)
/-- C116: `-vx`, and `-s` to `sgmkgrid`, which has no such flag -/
example : ∃ n, parseArgs pf pi mkgridParser ["--lon1".toList, "2".toList, "-vx".toList, "--outfile=a".toList] = .exit n :=
  C116_bad_group pf pi mkgridOptions mkgridParser (by simp [tables]) ["--lon1".toList, "2".toList] ["--outfile=a".toList] (by decide) 'v' ['x']
    (by decide +kernel) ⟨'x', by decide, by decide +kernel⟩
example : ∃ n, parseArgs pf pi mkgridParser ["--lon1".toList, "2".toList, "-s".toList] = .exit n :=
  C116_unknown_option pf pi mkgridOptions mkgridParser (by simp [tables]) ["--lon1".toList, "2".toList] [] (by decide) 's' []
    (by decide) (fun h => by have := negLike_iff.2 h; revert this; decide) (by decide) (by decide +kernel) (by decide)
/-- `--latt=3` -/
example : ∃ n, parseArgs pf pi mkgridParser ["--latt=3".toList, "--lon1".toList, "2".toList] = .exit n :=
  C116_unknown_option pf pi mkgridOptions mkgridParser (by simp [tables]) [] ["--lon1".toList, "2".toList] (by decide) '-' "latt=3".toList
    (by decide) (fun h => by have := negLike_iff.2 h; revert this; decide) (by decide) (by decide +kernel) (by decide +kernel)
end ExWords

end SG.Cli
