import Verif.Model.CommandLine
/-! # Lemmas about `parse_args` -/

namespace SG.Cli
variable {F : Type}

/-- Conditions on option tables that hold of all five. -/
structure Good (P : Parser) : Prop where
  nodup : ((optMap P).map (·.1)).Nodup
  long : ∀ x ∈ helpOpt :: P, ∃ c n, x.long = '-' :: '-' :: c :: n
  noEq : ∀ x ∈ helpOpt :: P, '=' ∉ x.long
  short : ∀ x ∈ helpOpt :: P, ∀ c, x.short = some c → c ∈ ['h', 's', 'v']
  dest : (P.map (·.long)).Nodup
  flags : ∀ x ∈ P, x.kind ≠ .help
  shortFlag : ∀ x ∈ P, x.short ≠ none → x.kind = .flag

def goodB (P : Parser) : Bool :=
  decide ((optMap P).map (·.1)).Nodup && (helpOpt :: P).all (fun x => x.long.take 2 = ['-', '-'] && (x.long.drop 2 ≠ [])) &&
  (helpOpt :: P).all (fun x => !x.long.contains '=') &&
  (helpOpt :: P).all (fun x => match x.short with | some c => decide (c ∈ ['h', 's', 'v']) | none => true) &&
  decide (P.map (·.long)).Nodup && P.all (fun x => x.kind ≠ .help) &&
  P.all (fun x => x.short.isNone || x.kind = .flag)

theorem good_of (P : Parser) (h : goodB P = true) : Good P := by
  unfold goodB at h
  simp only [Bool.and_eq_true, decide_eq_true_eq, List.all_eq_true] at h
  obtain ⟨⟨⟨⟨⟨⟨h1, h2⟩, h3⟩, h4⟩, h5⟩, h6⟩, h7⟩ := h
  refine ⟨h1, fun x hx => ?_, fun x hx => ?_, fun x hx c hc => ?_, h5, fun x hx => h6 x hx, fun x hx hs => ?_⟩
  · obtain ⟨a, b⟩ := h2 x hx
    rcases hl : x.long with _ | ⟨p, _ | ⟨q, _ | ⟨r, l⟩⟩⟩ <;> rw [hl] at a b <;> simp at a b
    exact ⟨r, l, by rw [a.1, a.2]⟩
  · have := h3 x hx
    simpa using this
  · have := h4 x hx
    rw [hc] at this
    exact of_decide_eq_true this
  · have := h7 x hx
    rw [Bool.or_eq_true, decide_eq_true_eq] at this
    rcases this with h | h
    · exact absurd (by simpa using h) hs
    · exact h

theorem good_mkgrid : Good mkgridParser := good_of _ (by decide +kernel)
theorem good_regrid : Good regridParser := good_of _ (by decide +kernel)
theorem good_twoTiles : Good twoTilesParser := good_of _ (by decide +kernel)
theorem good_getobcs : Good getobcsParser := good_of _ (by decide +kernel)

theorem mem_optMap {P : Parser} {x : Text × Opt} : x ∈ optMap P ↔
    x.2 ∈ helpOpt :: P ∧ (x.1 = x.2.long ∨ ∃ c, x.2.short = some c ∧ x.1 = ['-', c]) := by
  unfold optMap
  rw [List.mem_flatMap]
  constructor
  · rintro ⟨o, ho, hx⟩
    rcases List.mem_append.1 hx with hx | hx
    · cases hs : o.short with
      | none => rw [hs] at hx; cases hx
      | some c =>
        rw [hs] at hx
        cases List.mem_singleton.1 hx
        exact ⟨ho, .inr ⟨c, hs, rfl⟩⟩
    · cases List.mem_singleton.1 hx
      exact ⟨ho, .inl rfl⟩
  · rintro ⟨ho, hx⟩
    refine ⟨x.2, ho, List.mem_append.2 ?_⟩
    rcases hx with hx | ⟨c, hs, hx⟩
    · exact .inr (List.mem_singleton.2 (by rw [← hx]))
    · rw [hs]
      exact .inl (List.mem_singleton.2 (by rw [← hx]))

theorem find_nodup {α β : Type} [DecidableEq α] : ∀ (l : List (α × β)) (x : α × β), (l.map (·.1)).Nodup → x ∈ l →
    l.find? (fun y => y.1 = x.1) = some x
  | y :: l, x, hn, hx => by
    rw [List.map_cons, List.nodup_cons] at hn
    rw [List.find?_cons]
    rcases List.mem_cons.1 hx with rfl | hx
    · simp
    · have : y.1 ≠ x.1 := fun e => hn.1 (e ▸ List.mem_map.2 ⟨x, hx, rfl⟩)
      simp only [this, decide_false]
      exact find_nodup l x hn.2 hx

theorem lookup_mem {P : Parser} (hP : Good P) {x : Text × Opt} (hx : x ∈ optMap P) : lookup P x.1 = some x.2 := by
  unfold lookup
  rw [find_nodup _ _ hP.nodup hx]
  rfl

theorem lookup_long {P : Parser} (hP : Good P) {o : Opt} (ho : o ∈ helpOpt :: P) : lookup P o.long = some o :=
  lookup_mem hP (x := (o.long, o)) (mem_optMap.2 ⟨ho, .inl rfl⟩)

theorem lookup_short {P : Parser} (hP : Good P) {o : Opt} (ho : o ∈ helpOpt :: P) {c : Char} (hc : o.short = some c) :
    lookup P ['-', c] = some o :=
  lookup_mem hP (x := (['-', c], o)) (mem_optMap.2 ⟨ho, .inr ⟨c, hc, rfl⟩⟩)

theorem lookup_some {P : Parser} {t : Text} {o : Opt} (h : lookup P t = some o) : (t, o) ∈ optMap P := by
  unfold lookup at h
  obtain ⟨x, hx, e⟩ := Option.map_eq_some_iff.1 h
  have h1 := List.find?_some hx
  have h2 := List.mem_of_find?_eq_some hx
  simp only [decide_eq_true_eq] at h1
  subst e h1
  exact h2

theorem takeWhile_no {t : Text} {v : Text} (h : '=' ∉ t) : (t ++ '=' :: v).takeWhile (· ≠ '=') = t := by
  induction t with
  | nil => simp
  | cons a t ih =>
    simp only [List.mem_cons, not_or] at h
    rw [List.cons_append, List.takeWhile_cons, if_pos (by simpa using fun e => h.1 e.symm), ih h.2]

theorem dropWhile_no {t : Text} {v : Text} (h : '=' ∉ t) : (t ++ '=' :: v).dropWhile (· ≠ '=') = '=' :: v := by
  induction t with
  | nil => simp
  | cons a t ih =>
    simp only [List.mem_cons, not_or] at h
    rw [List.cons_append, List.dropWhile_cons, if_pos (by simpa using fun e => h.1 e.symm), ih h.2]

theorem dropWhile_none {t : Text} (h : '=' ∉ t) : t.dropWhile (· ≠ '=') = [] := by
  induction t with
  | nil => rfl
  | cons a t ih =>
    simp only [List.mem_cons, not_or] at h
    rw [List.dropWhile_cons, if_pos (by simpa using fun e => h.1 e.symm), ih h.2]

theorem partEq_eq {t v : Text} (h : '=' ∉ t) : partEq (t ++ '=' :: v) = (t, some v) := by
  unfold partEq
  rw [takeWhile_no h, dropWhile_no h]

theorem partEq_none {t : Text} (h : '=' ∉ t) : (partEq t).2 = none := by
  unfold partEq
  rw [dropWhile_none h]

theorem key_noEq {P : Parser} (hP : Good P) {x : Text × Opt} (hx : x ∈ optMap P) : '=' ∉ x.1 := by
  obtain ⟨ho, h | ⟨c, hc, h⟩⟩ := mem_optMap.1 hx
  · rw [h]; exact hP.noEq _ ho
  · rw [h]
    have := hP.short _ ho c hc
    intro hm
    simp only [List.mem_cons, List.not_mem_nil, or_false] at hm
    rcases hm with hm | hm
    · cases hm
    · rw [← hm] at this; revert this; decide

/-- A long option by itself. -/
theorem parseOptional_long {P : Parser} (hP : Good P) {o : Opt} (ho : o ∈ P) : parseOptional P o.long = some (.opt o o.long none) := by
  have ho' : o ∈ helpOpt :: P := List.mem_cons.2 (.inr ho)
  obtain ⟨c, n, e⟩ := hP.long o ho'
  unfold parseOptional
  rw [if_neg (by rw [e]; simp), lookup_long hP ho']

theorem parseOptional_short {P : Parser} (hP : Good P) {o : Opt} (ho : o ∈ P) {c : Char} (hc : o.short = some c) :
    parseOptional P ['-', c] = some (.opt o ['-', c] none) := by
  have ho' : o ∈ helpOpt :: P := List.mem_cons.2 (.inr ho)
  unfold parseOptional
  rw [if_neg (by simp), lookup_short hP ho' hc]

/-- `--name=value` -/
theorem parseOptional_eq {P : Parser} (hP : Good P) {o : Opt} (ho : o ∈ P) (v : Text) :
    parseOptional P (o.long ++ '=' :: v) = some (.opt o o.long (some (true, v))) := by
  have ho' : o ∈ helpOpt :: P := List.mem_cons.2 (.inr ho)
  obtain ⟨c, n, e⟩ := hP.long o ho'
  have hq := hP.noEq o ho'
  have hl : lookup P (o.long ++ '=' :: v) = none := by
    cases h : lookup P (o.long ++ '=' :: v) with
    | none => rfl
    | some o' => exact absurd (List.mem_append.2 (.inr (by simp))) (key_noEq hP (lookup_some h))
  unfold parseOptional
  rw [if_neg (by rw [e]; simp), hl]
  simp only
  rw [if_neg (by rw [e]; simp), partEq_eq hq]
  simp only [lookup_long hP ho']

theorem not_hsv {P : Parser} (hP : Good P) {c : Char} (h : c ∉ ['h', 's', 'v']) : ∀ o ∈ helpOpt :: P, o.short ≠ some c :=
  fun o ho e => h (hP.short o ho c e)

theorem not_key {P : Parser} (hP : Good P) {c : Char} (h1 : c ≠ '-') (h2 : ∀ o ∈ helpOpt :: P, o.short ≠ some c) {x : Text × Opt} (hx : x ∈ optMap P) :
    ¬ ['-', c] <+: x.1 := by
  rintro ⟨r, hr⟩
  obtain ⟨ho, h | ⟨d, hd, h⟩⟩ := mem_optMap.1 hx
  · obtain ⟨a, n, e⟩ := hP.long _ ho
    rw [h, e] at hr
    simp only [List.cons_append, List.nil_append, List.cons.injEq] at hr
    exact h1 hr.2.1
  · rw [h] at hr
    simp only [List.cons_append, List.nil_append, List.cons.injEq] at hr
    exact h2 _ ho (by rw [hd, hr.2.1])

/-- Arguments beginning with a dash and something that is neither a dash nor the letter of a flag. -/
theorem parseOptional_other {P : Parser} (hP : Good P) {c : Char} {s : Text} (h1 : c ≠ '-') (h2 : ∀ o ∈ helpOpt :: P, o.short ≠ some c) :
    parseOptional P ('-' :: c :: s) =
      some (if negLike ('-' :: c :: s) then .arg ('-' :: c :: s) else if ' ' ∈ '-' :: c :: s then .arg ('-' :: c :: s) else .unknown) := by
  have hnk : ∀ t, ['-', c] <+: t → lookup P t = none := by
    intro t ht
    cases h : lookup P t with
    | none => rfl
    | some o' => exact absurd ht (not_key hP h1 h2 (lookup_some h))
  have hab : parseAbbrev P ('-' :: c :: s) =
      some (if negLike ('-' :: c :: s) then .arg ('-' :: c :: s) else if ' ' ∈ '-' :: c :: s then .arg ('-' :: c :: s) else .unknown) := by
    unfold parseAbbrev
    have : candidates P ('-' :: c :: s) = [] := by
      unfold candidates
      rw [if_neg (by simpa using h1)]
      rw [List.filterMap_eq_nil_iff]
      intro x hx
      have hk := not_key hP h1 h2 hx
      rw [if_neg (fun e => hk (by rw [e]; exact List.prefix_rfl)), if_neg]
      intro hp
      exact hk (List.IsPrefix.trans ⟨s, rfl⟩ (List.isPrefixOf_iff_prefix.1 hp))
    rw [this]
  unfold parseOptional
  rw [if_neg (by simp), hnk ('-' :: c :: s) ⟨s, rfl⟩]
  simp only
  rw [if_neg (by simp)]
  cases hq : (partEq ('-' :: c :: s)).2 with
  | none => exact hab
  | some e =>
    simp only
    by_cases hc : c = '='
    · -- `-=...`
      have : (partEq ('-' :: c :: s)).1 = ['-'] := by rw [hc]; rfl
      rw [this]
      cases hl : lookup P ['-'] with
      | none => exact hab
      | some o' =>
        exfalso
        obtain ⟨ho, h | ⟨d, hd, h⟩⟩ := mem_optMap.1 (lookup_some hl)
        · obtain ⟨a, n, e⟩ := hP.long _ ho
          rw [e] at h
          cases h
        · cases h
    · rw [hnk _ (by
        unfold partEq
        simp only
        rw [List.takeWhile_cons, if_pos (by decide), List.takeWhile_cons, if_pos (by simpa using hc)]
        exact ⟨_, rfl⟩)]
      exact hab

theorem parseOptional_plain (P : Parser) {t : Text} (h : t.head? ≠ some '-') : parseOptional P t = some (.arg t) := by
  unfold parseOptional
  rw [if_pos h]

theorem parseOptional_dash {P : Parser} (hP : Good P) : parseOptional P ['-'] = some (.arg ['-']) := by
  unfold parseOptional
  rw [if_neg (by simp)]
  have : lookup P ['-'] = none := by
    cases hl : lookup P ['-'] with
    | none => rfl
    | some o' =>
      exfalso
      obtain ⟨ho, h | ⟨d, hd, h⟩⟩ := mem_optMap.1 (lookup_some hl)
      · obtain ⟨a, n, e⟩ := hP.long _ ho
        rw [e] at h
        cases h
      · cases h
  rw [this]
  rfl

/-! ## The loop -/

theorem classify_append {P : Parser} : ∀ (ts : List Text) (ks : List Tok) (rest : List Text),
    (∀ t ∈ ts, t ≠ ['-', '-']) → classify P ts = some ks → classify P (ts ++ rest) = (classify P rest).map (ks ++ ·)
  | [], ks, rest, _, h => by
    cases h
    simp
  | t :: ts, ks, rest, hd, h => by
    unfold classify at h
    rw [if_neg (hd t (by simp))] at h
    rw [List.cons_append, classify, if_neg (hd t (by simp))]
    cases hp : parseOptional P t with
    | none => rw [hp] at h; cases h
    | some k =>
      rw [hp] at h
      simp only at h ⊢
      obtain ⟨ks', hk, rfl⟩ := Option.map_eq_some_iff.1 h
      rw [classify_append ts ks' rest (fun u hu => hd u (by simp [hu])) hk]
      cases classify P rest <;> rfl

/-- Options that take a value. -/
def Opt.valued (o : Opt) : Prop := o.kind = .float ∨ o.kind = .int ∨ o.kind = .text

theorem consume_value {pf : Text → Option F} {pi : Text → Option Int} {P : Parser} {o : Opt} (h : o.valued) (s t : Text) (ks : List Tok)
    (ns : Ns F) (ex : Bool) : consume pf pi P (.opt o s none :: .arg t :: ks) ns ex =
      match convert pf pi o.kind t with
      | none => .exit 2
      | some v => consume pf pi P ks (ns.set o v) ex := by
  rw [consume]
  rcases h with h | h | h <;> rw [h] <;> simp only
  all_goals
    split <;> rename_i e <;> rw [e]

theorem consume_eq {pf : Text → Option F} {pi : Text → Option Int} {P : Parser} {o : Opt} (h : o.valued) (s t : Text) (b : Bool) (ks : List Tok)
    (ns : Ns F) (ex : Bool) : consume pf pi P (.opt o s (some (b, t)) :: ks) ns ex =
      match convert pf pi o.kind t with
      | none => .exit 2
      | some v => consume pf pi P ks (ns.set o v) ex := by
  rw [consume, if_neg (by rcases h with h | h | h <;> rw [h] <;> simp)]
  split <;> rename_i e <;> rw [e]

theorem consume_noarg {pf : Text → Option F} {pi : Text → Option Int} {P : Parser} {o : Opt} (h : o.valued) (s : Text) (ks : List Tok)
    (hk : ∀ t ks', ks ≠ .arg t :: ks') (ns : Ns F) (ex : Bool) : consume pf pi P (.opt o s none :: ks) ns ex = .exit 2 := by
  rw [consume]
  rcases h with h | h | h <;> rw [h] <;> simp only
  all_goals
    split
    · exact absurd rfl (hk _ _)
    · rfl

theorem consume_flag {pf : Text → Option F} {pi : Text → Option Int} {P : Parser} {o : Opt} (h : o.kind = .flag) (s : Text) (ks : List Tok)
    (ns : Ns F) (ex : Bool) : consume pf pi P (.opt o s none :: ks) ns ex = consume pf pi P ks (ns.set o .true_) ex := by
  rw [consume]
  rw [h]

end SG.Cli
