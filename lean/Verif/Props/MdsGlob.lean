import Verif.Model.MdsGlob
import Verif.Props.MdsTiles
/-! # C143: wildcards in the name given to `rdmds` -/

set_option linter.unusedSectionVars false
namespace SG
variable {F : Type}

namespace Spec

/-- Shell patterns with `*` and `?`. -/
inductive Shell : Text → Text → Prop
  | nil : Shell [] []
  | char {p s : Text} (c : Char) (h1 : c ≠ '*') (h2 : c ≠ '?') (h : Shell p s) : Shell (c :: p) (c :: s)
  | any {p s : Text} (x : Char) (h : Shell p s) : Shell ('?' :: p) (x :: s)
  | none {p s : Text} (h : Shell p s) : Shell ('*' :: p) s
  | more {p s : Text} (x : Char) (h : Shell ('*' :: p) s) : Shell ('*' :: p) (x :: s)

/-- The name `s` is one of those the shell puts for the pattern `p`: hidden names only if asked for. -/
def Expands (p s : Text) : Prop := Shell p s ∧ (s.head? = some '.' → p.head? = some '.')

/-- No wildcard and no slash. -/
def Plain (t : Text) : Prop := ∀ c ∈ t, c ≠ '*' ∧ c ≠ '?' ∧ c ≠ '[' ∧ c ≠ '/'

end Spec

/-! ## Patterns -/

theorem parsePat_plain : ∀ {t : Text} (s : Text), (∀ c ∈ t, c ≠ '*' ∧ c ≠ '?' ∧ c ≠ '[') →
    parsePat (t ++ s).length (t ++ s) = t.map .lit ++ parsePat s.length s
  | [], _, _ => rfl
  | c :: t, s, h => by
    have ih := parsePat_plain s (fun x hx => h x (List.mem_cons_of_mem _ hx)) (t := t)
    obtain ⟨h1, h2, h3⟩ := h c List.mem_cons_self
    show parsePat ((t ++ s).length + 1) (c :: (t ++ s)) = .lit c :: _
    rw [parsePat, ih]
    · rfl
    · exact fun e => h1 e
    · exact fun e => h2 e
    · exact fun e => h3 e

theorem patMatch_lits (q : List Pat) : ∀ (t s : Text), patMatch (t.map .lit ++ q) s = (t.isPrefixOf s && patMatch q (s.drop t.length))
  | [], s => by simp
  | c :: t, [] => rfl
  | c :: t, x :: s => by
    show (decide (c = x) && patMatch (t.map .lit ++ q) s) = _
    rw [patMatch_lits q t s]
    by_cases h : c = x
    · subst h; simp
    · simp [h]

/-- `[0-9]` -/
def digitCls : Pat := .cls false [('0', '9')]

theorem digit_iff (x : Char) : (false != [(('0', '9') : Char × Char)].any fun r => r.1 ≤ x && x ≤ r.2) = x.isDigit := by
  unfold Char.isDigit
  simp [Char.le_def]

theorem patMatch_digits (q : List Pat) : ∀ (k : Nat) (s : Text), patMatch (List.replicate k digitCls ++ q) s = digitsThen k s (patMatch q)
  | 0, s => by simp [digitsThen]
  | k + 1, [] => by simp [digitsThen, List.replicate_succ, patMatch, digitCls]
  | k + 1, x :: s => by
    show ((false != [(('0', '9') : Char × Char)].any fun r => r.1 ≤ x && x ≤ r.2) && patMatch (List.replicate k digitCls ++ q) s) = _
    rw [digit_iff, patMatch_digits q k s]
    unfold digitsThen
    have e : decide ((List.take (k + 1) (x :: s)).length = k + 1) = decide ((List.take k s).length = k) := by simp
    rw [e]
    show _ = (decide ((List.take k s).length = k) && (x.isDigit && (List.take k s).all Char.isDigit) && patMatch q (List.drop k s))
    cases decide ((List.take k s).length = k) <;> cases x.isDigit <;> rfl

theorem parse_tile : parsePat ('.' :: digitPat 3 ++ ('.' :: digitPat 3 ++ ".meta".toList)).length ('.' :: digitPat 3 ++ ('.' :: digitPat 3 ++ ".meta".toList)) =
    ['.'].map .lit ++ (List.replicate 3 digitCls ++ (['.'].map .lit ++ (List.replicate 3 digitCls ++ (".meta".toList.map .lit ++ [])))) := by decide +kernel

theorem parse_meta : parsePat ".meta".toList.length ".meta".toList = ".meta".toList.map .lit ++ [] := by decide +kernel

theorem parse_itr_tile : parsePat ('.' :: digitPat 10 ++ ".001.001.meta".toList).length ('.' :: digitPat 10 ++ ".001.001.meta".toList) =
    ['.'].map .lit ++ (List.replicate 10 digitCls ++ (".001.001.meta".toList.map .lit ++ [])) := by decide +kernel

theorem parse_itr : parsePat ('.' :: digitPat 10 ++ ".meta".toList).length ('.' :: digitPat 10 ++ ".meta".toList) =
    ['.'].map .lit ++ (List.replicate 10 digitCls ++ (".meta".toList.map .lit ++ [])) := by decide +kernel

theorem lit_end (t s : Text) : patMatch (t.map .lit ++ []) s = decide (s = t) := by
  rw [patMatch_lits]
  by_cases h : s = t
  · subst h; simp [patMatch]
  · rw [decide_eq_false h, Bool.and_eq_false_iff]
    by_cases hp : t.isPrefixOf s = true
    · right
      obtain ⟨r, rfl⟩ := List.isPrefixOf_iff_prefix.1 hp
      rw [List.drop_left]
      cases r with
      | nil => simp at h
      | cons x r => rfl
    · left; exact Bool.eq_false_iff.2 hp

theorem dot_first (q : List Pat) (s : Text) : patMatch (['.'].map .lit ++ q) s = (decide (s.take 1 = ['.']) && patMatch q (s.drop 1)) := by
  rw [patMatch_lits]
  congr 1
  cases s with
  | nil => rfl
  | cons x s =>
    show ('.' == x && true) = _
    by_cases h : x = '.'
    · subst h; simp
    · have : ('.' == x) = false := by simpa using fun e => h e.symm
      simp [this, h]

/-- A name without wildcards followed by a pattern that begins with a dot. -/
theorem compMatch_plain {t q : Text} (n : Text) (h : Spec.Plain t) (hq : q.head? = some '.') {P : List Pat} (hP : parsePat q.length q = P) :
    compMatch (t ++ q) n = (t.isPrefixOf n && patMatch P (n.drop t.length)) := by
  unfold compMatch
  rw [parsePat_plain q (fun c hc => ⟨(h c hc).1, (h c hc).2.1, (h c hc).2.2.1⟩), hP, patMatch_lits]
  by_cases hp : t.isPrefixOf n = true
  · have : (n.head? != some '.' || decide ((t ++ q).head? = some '.')) = true := by
      obtain ⟨r, rfl⟩ := List.isPrefixOf_iff_prefix.1 hp
      cases t with
      | nil => simp [hq]
      | cons c t =>
        by_cases hc : c = '.'
        · simp [hc]
        · simp [hc]
    rw [this, Bool.true_and]
  · have : t.isPrefixOf n = false := Bool.eq_false_iff.2 hp
    rw [this]
    simp

theorem compMatch_tile {t : Text} (n : Text) (h : Spec.Plain t) :
    compMatch (t ++ ('.' :: digitPat 3 ++ ('.' :: digitPat 3 ++ ".meta".toList))) n = (t.isPrefixOf n && isTileSuffix (n.drop t.length)) := by
  rw [compMatch_plain n h rfl parse_tile, dot_first, patMatch_digits]
  unfold isTileSuffix
  congr 3
  funext s
  rw [dot_first, patMatch_digits]
  congr 2
  funext s
  exact lit_end _ _

theorem compMatch_meta {t : Text} (n : Text) (h : Spec.Plain t) : compMatch (t ++ ".meta".toList) n = decide (n = t ++ ".meta".toList) := by
  rw [compMatch_plain n h rfl parse_meta, lit_end]
  by_cases hp : t.isPrefixOf n = true
  · obtain ⟨r, rfl⟩ := List.isPrefixOf_iff_prefix.1 hp
    simp
  · have h1 : t.isPrefixOf n = false := Bool.eq_false_iff.2 hp
    rw [h1, Bool.false_and, eq_comm, decide_eq_false_iff_not]
    rintro rfl
    exact hp (List.isPrefixOf_iff_prefix.2 (List.prefix_append _ _))

theorem compMatch_itr {t suf : Text} (n : Text) (h : Spec.Plain t) (hs : suf = ".001.001.meta".toList ∨ suf = ".meta".toList) :
    compMatch (t ++ ('.' :: digitPat 10 ++ suf)) n =
      (t.isPrefixOf n && (decide ((n.drop t.length).take 1 = ['.']) && digitsThen 10 ((n.drop t.length).drop 1) fun s => s = suf)) := by
  have hP : parsePat ('.' :: digitPat 10 ++ suf).length ('.' :: digitPat 10 ++ suf) =
    ['.'].map .lit ++ (List.replicate 10 digitCls ++ (suf.map .lit ++ [])) := by
    rcases hs with rfl | rfl
    · exact parse_itr_tile
    · exact parse_itr
  rw [compMatch_plain n h rfl hP, dot_first, patMatch_digits]
  congr 3
  funext s
  exact lit_end _ _

/-! ## `*` and `?` -/

theorem mem_ends : ∀ {s t : Text}, t ∈ ends s ↔ ∃ a, s = a ++ t
  | [], t => by
    constructor
    · intro h
      exact ⟨[], by simpa [ends] using (List.mem_singleton.1 h).symm⟩
    · rintro ⟨a, h⟩
      have := List.append_eq_nil_iff.1 h.symm
      rw [this.2]; exact List.mem_singleton.2 rfl
  | c :: s, t => by
    constructor
    · intro h
      rcases List.mem_cons.1 h with rfl | h
      · exact ⟨[], rfl⟩
      · obtain ⟨a, e⟩ := mem_ends.1 h
        exact ⟨c :: a, by rw [e]; rfl⟩
    · rintro ⟨a, e⟩
      cases a with
      | nil => rw [show t = c :: s from e.symm]; exact List.mem_cons_self
      | cons x a =>
        injection e with _ e
        exact List.mem_cons_of_mem _ (mem_ends.2 ⟨a, e⟩)

theorem shell_star {p t : Text} (h : Spec.Shell p t) : ∀ a : Text, Spec.Shell ('*' :: p) (a ++ t)
  | [] => .none h
  | x :: a => .more x (shell_star h a)

theorem star_shell {p q s : Text} (h : Spec.Shell q s) : q = '*' :: p → ∃ a t, s = a ++ t ∧ Spec.Shell p t := by
  induction h with
  | nil => intro e; cases e
  | char c h1 _ _ _ => intro e; injection e with e _; exact absurd e h1
  | any x h _ => intro e; injection e with e _; exact absurd e (by decide)
  | none h _ => intro e; injection e with _ e; subst e; exact ⟨[], _, rfl, h⟩
  | more x h ih =>
    intro e
    obtain ⟨a, t, rfl, ht⟩ := ih e
    exact ⟨x :: a, t, rfl, ht⟩

/-- Without brackets the patterns of `fnmatch` are those of the specification. -/
theorem patMatch_shell : ∀ {p : Text} (s : Text), (∀ c ∈ p, c ≠ '[') → (patMatch (parsePat p.length p) s = true ↔ Spec.Shell p s)
  | [], s, _ => by
    show s.isEmpty = true ↔ _
    rw [List.isEmpty_iff]
    constructor
    · rintro rfl; exact .nil
    · intro h; cases h; rfl
  | c :: p, s, h => by
    have ih := fun s => patMatch_shell (p := p) s (fun x hx => h x (List.mem_cons_of_mem _ hx))
    by_cases h1 : c = '*'
    · subst h1
      show (ends s).any (patMatch (parsePat p.length p)) = true ↔ _
      rw [List.any_eq_true]
      constructor
      · rintro ⟨t, ht, hm⟩
        obtain ⟨a, rfl⟩ := mem_ends.1 ht
        exact shell_star ((ih t).1 hm) a
      · intro hs
        obtain ⟨a, t, rfl, ht⟩ := star_shell hs rfl
        exact ⟨t, mem_ends.2 ⟨a, rfl⟩, (ih t).2 ht⟩
    · by_cases h2 : c = '?'
      · subst h2
        show patMatch (.any :: parsePat p.length p) s = true ↔ _
        cases s with
        | nil => constructor <;> intro h <;> cases h
        | cons x s =>
          show patMatch _ s = true ↔ _
          rw [ih s]
          constructor
          · exact .any x
          · intro h
            cases h with
            | any _ h => exact h
            | char _ _ h2 _ => exact absurd rfl h2
      · have hp : parsePat (p.length + 1) (c :: p) = .lit c :: parsePat p.length p := by
          rw [parsePat]
          · exact fun e => h1 e
          · exact fun e => h2 e
          · exact fun e => h c List.mem_cons_self e
        show patMatch (parsePat (p.length + 1) (c :: p)) s = true ↔ _
        rw [hp]
        cases s with
        | nil =>
          constructor
          · intro h; cases h
          · intro h
            cases h with
            | none _ => exact absurd rfl h1
        | cons x s =>
          show (decide (c = x) && patMatch _ s) = true ↔ _
          rw [Bool.and_eq_true, decide_eq_true_eq, ih s]
          constructor
          · rintro ⟨rfl, hs⟩; exact .char c h1 h2 hs
          · intro hs
            cases hs with
            | char _ _ _ hs => exact ⟨rfl, hs⟩
            | any _ _ => exact absurd rfl h2
            | none _ => exact absurd rfl h1
            | more _ _ => exact absurd rfl h1

theorem compMatch_shell {p : Text} (s : Text) (h : ∀ c ∈ p, c ≠ '[') : compMatch p s = true ↔ Spec.Expands p s := by
  unfold compMatch Spec.Expands
  rw [Bool.and_eq_true, patMatch_shell s h, Bool.or_eq_true, decide_eq_true_eq, bne_iff_ne, and_comm]
  constructor
  · rintro ⟨a, b⟩
    refine ⟨a, fun e => ?_⟩
    rcases b with b | b
    · exact absurd e b
    · exact b
  · rintro ⟨a, b⟩
    refine ⟨a, ?_⟩
    by_cases e : s.head? = some '.'
    · exact .inr (b e)
    · exact .inl e

/-! ## Paths -/

theorem comps_plain : ∀ {t : Text}, '/' ∉ t → comps t = [t]
  | [], _ => rfl
  | c :: t, h => by
    rw [comps, comps_plain (t := t) (fun hc => h (List.mem_cons_of_mem _ hc)), if_neg (fun e => h (by rw [e]; exact List.mem_cons_self))]

theorem comps_slash : ∀ {a : Text} (b : Text), '/' ∉ a → comps (a ++ '/' :: b) = a :: comps b
  | [], b, _ => by show comps ('/' :: b) = _; rw [comps, if_pos rfl]
  | c :: a, b, h => by
    show comps (c :: (a ++ '/' :: b)) = _
    rw [comps, comps_slash (a := a) b (fun hc => h (List.mem_cons_of_mem _ hc)), if_neg (fun e => h (by rw [e]; exact List.mem_cons_self))]

theorem comps_length : ∀ t : Text, (comps t).length = t.count '/' + 1
  | [] => rfl
  | c :: t => by
    have ih := comps_length t
    rw [comps]
    by_cases h : c = '/'
    · rw [if_pos h, h, List.count_cons_self, List.length_cons, ih]
    · rw [if_neg h, List.count_cons_of_ne h]
      cases hc : comps t with
      | nil => rw [hc] at ih; simp at ih
      | cons w ws => rw [hc] at ih; exact ih

/-- Only names with as many slashes as the pattern are found. -/
theorem globbed_depth (d : MdsDir) (p : Text) : d.globbed p = (d.names.filter fun n => n.count '/' = p.count '/').filter (pathMatch p) := by
  unfold MdsDir.globbed
  rw [List.filter_filter]
  apply List.filter_congr
  intro n _
  by_cases h : n.count '/' = p.count '/'
  · simp [h]
  · have : pathMatch p n = false := by
      unfold pathMatch
      dsimp only
      rw [comps_length, comps_length, decide_eq_false (by omega)]
      rfl
    rw [this]
    rfl

theorem count_one {a b : Text} (ha : '/' ∉ a) (hb : '/' ∉ b) : (a ++ '/' :: b).count '/' = 1 := by
  rw [List.count_append, List.count_cons_self, List.count_eq_zero.2 ha, List.count_eq_zero.2 hb]

theorem pathMatch_name {p n : Text} (hp : '/' ∉ p) (hn : '/' ∉ n) : pathMatch p n = compMatch p n := by
  unfold pathMatch
  rw [comps_plain hp, comps_plain hn]
  simp

theorem pathMatch_dir {w p dir n : Text} (hw : '/' ∉ w) (hp : '/' ∉ p) (hd : '/' ∉ dir) (hn : '/' ∉ n) :
    pathMatch (w ++ '/' :: p) (dir ++ '/' :: n) = (compMatch w dir && compMatch p n) := by
  unfold pathMatch
  rw [comps_slash p hw, comps_slash n hd, comps_plain hp, comps_plain hn]
  simp

/-! ## Names without wildcards -/

theorem slash_suffix {t q : Text} (h : Spec.Plain t) (hq : '/' ∉ q) : '/' ∉ t ++ q := by
  intro hc
  rcases List.mem_append.1 hc with hc | hc
  · exact (h _ hc).2.2.2 rfl
  · exact hq hc

theorem plain_itr {t : Text} (h : Spec.Plain t) (n : Nat) : Spec.Plain (t ++ itrText n) := by
  intro c hc
  rcases List.mem_append.1 hc with hc | hc
  · exact h c hc
  · rcases List.mem_cons.1 hc with rfl | hc
    · decide
    · have : c.isDigit = true := by
        rcases List.mem_append.1 hc with hc | hc
        · rw [(List.mem_replicate.1 hc).2]; rfl
        · exact natText_digit n c hc
      refine ⟨?_, ?_, ?_, ?_⟩ <;> rintro rfl <;> revert this <;> decide

theorem filter_one {l : List Text} (hd : l.Nodup) (x : Text) : l.filter (fun n => decide (n = x)) = if x ∈ l then [x] else [] := by
  induction l with
  | nil => rfl
  | cons a l ih =>
    have ih := ih (List.nodup_cons.1 hd).2
    by_cases h : a = x
    · subst h
      have hn := (List.nodup_cons.1 hd).1
      rw [List.filter_cons_of_pos (by simp), ih, if_neg hn, if_pos List.mem_cons_self]
    · rw [List.filter_cons_of_neg (by simpa using h), ih]
      by_cases hx : x ∈ l
      · rw [if_pos hx, if_pos (List.mem_cons_of_mem _ hx)]
      · rw [if_neg hx, if_neg (by simp [hx, Ne.symm h])]

theorem slash_tile : '/' ∉ ('.' :: digitPat 3 ++ ('.' :: digitPat 3 ++ ".meta".toList) : Text) := by decide +kernel
theorem slash_meta : '/' ∉ (".meta".toList : Text) := by decide +kernel
theorem slash_itr {suf : Text} (hs : suf = ".001.001.meta".toList ∨ suf = ".meta".toList) : '/' ∉ ('.' :: digitPat 10 ++ suf : Text) := by
  rcases hs with rfl | rfl <;> decide +kernel

/-- The number of an iteration is in the ten characters before the suffix. -/
theorem itr_chars {t suf n pre : Text} (h : (t.isPrefixOf n && (decide ((n.drop t.length).take 1 = ['.']) && digitsThen 10 ((n.drop t.length).drop 1) fun s => s = suf)) = true) :
    ((pre ++ n).take ((pre ++ n).length - suf.length)).drop ((pre ++ n).length - suf.length - 10) = ((n.drop t.length).drop 1).take 10 := by
  rw [Bool.and_eq_true, Bool.and_eq_true, decide_eq_true_eq] at h
  obtain ⟨h1, h2, h3⟩ := h
  obtain ⟨r, rfl⟩ := List.isPrefixOf_iff_prefix.1 h1
  rw [List.drop_left] at h2 h3 ⊢
  cases r with
  | nil => cases h2
  | cons x r =>
    unfold digitsThen at h3
    rw [Bool.and_eq_true, Bool.and_eq_true, decide_eq_true_eq, decide_eq_true_eq] at h3
    obtain ⟨⟨h3, -⟩, h4⟩ := h3
    show _ = r.take 10
    have h3 : (r.take 10).length = 10 := h3
    have h4 : r.drop 10 = suf := h4
    have hr : r = r.take 10 ++ suf := by rw [← h4, List.take_append_drop]
    generalize r.take 10 = a at hr h3
    subst hr
    have e : pre ++ (t ++ x :: (a ++ suf)) = (pre ++ t ++ [x]) ++ a ++ suf := by simp
    rw [e]
    generalize pre ++ t ++ [x] = b
    rw [show (b ++ a ++ suf).length - suf.length = (b ++ a).length by simp only [List.length_append]; omega, List.take_left,
      show (b ++ a).length - 10 = b.length by rw [List.length_append]; omega, List.drop_left]

theorem itrs_match {α : Type} {t suf : Text} (path name : α → Text) (hpath : ∀ a, ∃ pre, path a = pre ++ name a) (c : α → Bool) : ∀ (l : List α),
    (∀ a ∈ l, c a = ((t.isPrefixOf (name a) && (decide (((name a).drop t.length).take 1 = ['.']) && digitsThen 10 (((name a).drop t.length).drop 1) fun s => s = suf)))) →
    ((l.filter c).map path).map (fun n => textVal ((n.take (n.length - suf.length)).drop (n.length - suf.length - 10))) =
      (l.map name).filterMap fun n =>
        let s := n.drop t.length
        if t.isPrefixOf n && (s.take 1 = ['.'] && digitsThen 10 (s.drop 1) fun s => s = suf) then some (textVal ((s.drop 1).take 10)) else none
  | [], _ => rfl
  | a :: l, h => by
    have ih := itrs_match path name hpath c l (fun b hb => h b (List.mem_cons_of_mem _ hb))
    have ha := h a List.mem_cons_self
    rw [List.map_cons, List.filterMap_cons]
    dsimp only
    rw [← ih, ← ha]
    by_cases hc : c a = true
    · rw [List.filter_cons_of_pos hc, if_pos hc]
      obtain ⟨pre, e⟩ := hpath a
      rw [List.map_cons, List.map_cons, e, itr_chars (ha.symm.trans hc)]
    · rw [List.filter_cons_of_neg hc, if_neg hc]

theorem tile_meta {t n : Text} (h : (t.isPrefixOf n && isTileSuffix (n.drop t.length)) = true) : ∃ stem, n = stem ++ "meta".toList := by
  obtain ⟨h1, h2⟩ := Bool.and_eq_true_iff.1 h
  obtain ⟨r, rfl⟩ := List.isPrefixOf_iff_prefix.1 h1
  rw [List.drop_left] at h2
  obtain ⟨a, b, c, d, e, f, -, rfl⟩ := isTileSuffix_iff.1 h2
  exact ⟨t ++ ['.', a, b, c, '.', d, e, f, '.'], by simp⟩

section
variable [PyFloat F] [F64 F] [F32 F]

theorem foldlM_match {α β σ : Type} {f : σ → α → Py σ} {g : σ → β → Py σ} {γ : Type} (p : γ → α) (q : γ → β) : ∀ (l : List γ),
    (∀ e ∈ l, ∀ s, f s (p e) = g s (q e)) → ∀ s, (l.map p).foldlM f s = (l.map q).foldlM g s
  | [], _, _ => rfl
  | e :: l, h, s => by
    rw [List.map_cons, List.map_cons, List.foldlM_cons, List.foldlM_cons, h e List.mem_cons_self]
    cases g s (q e) with
    | error x => rfl
    | ok s' => exact foldlM_match p q l (fun e he => h e (List.mem_cons_of_mem _ he)) s'

/-- If the same iterations and files are found and the files give the same, `rdmds` gives the same. -/
theorem rdmds_match {pf : Text → Py F} {d flat : MdsDir} {fname base : Text} {args : RdArgs F} {γ : Type} (path name : γ → Text) (ok : γ → Prop)
    (hscan : d.scanG fname = flat.scan base)
    (hfiles : ∀ it : Option Nat, ∃ L : List γ, (∀ e ∈ L, ok e) ∧ d.metafilesG (nameOf fname it) = L.map path ∧ flat.metafiles (nameOf base it) = L.map name)
    (hstep : ∀ e, ok e → ∀ nit iit st, tileStep pf d args nit iit st (path e) = tileStep pf flat args nit iit st (name e)) :
    rdmdsG pf d fname args = rdmds pf flat base args := by
  have hit : itrsOfG d fname args.itrs = itrsOf flat base args.itrs := by
    cases args.itrs <;> simp [itrsOfG, itrsOf, hscan]
  have hstep' : ∀ nit st x, itrStepG pf d fname args nit st x = itrStep pf flat base args nit st x := by
    intro nit st x
    obtain ⟨it, i⟩ := x
    obtain ⟨L, h1, h2, h3⟩ := hfiles it
    have e1 : itrStepG pf d fname args nit st (it, i) = match d.metafilesG (nameOf fname it) with
      | [] => .error .ioError
      | files => files.foldlM (tileStep pf d args nit i) st := by cases it <;> rfl
    have e2 : itrStep pf flat base args nit st (it, i) = match flat.metafiles (nameOf base it) with
      | [] => .error .ioError
      | files => files.foldlM (tileStep pf flat args nit i) st := by cases it <;> rfl
    rw [e1, e2, h2, h3]
    cases L with
    | nil => rfl
    | cons e L => exact foldlM_match path name (e :: L) (fun e he s => hstep e (h1 e he) nit i s) st
  unfold rdmdsG rdmds
  rw [hit]
  have : itrStepG pf d fname args (itrsOf flat base args.itrs).length = itrStep pf flat base args (itrsOf flat base args.itrs).length := by
    funext st x; exact hstep' _ st x
  dsimp only
  rw [this]
  rfl

/-- **C143** (plain names): for a name without wildcards, and file names without slashes, the patterns of the code find the files by their names, as in the
other properties of `rdmds`. -/
theorem C143_plain_name (pf : Text → Py F) (d : MdsDir) (base : Text) (args : RdArgs F) (hd : d.names.Nodup) (hs : ∀ n ∈ d.names, '/' ∉ n)
    (hb : Spec.Plain base) : rdmdsG pf d base args = rdmds pf d base args := by
  have hglob : ∀ p : Text, '/' ∉ p → d.globbed p = d.names.filter (compMatch p) := by
    intro p hp
    unfold MdsDir.globbed
    exact List.filter_congr fun n hn => pathMatch_name hp (hs n hn)
  have hitr : ∀ suf : Text, suf = ".001.001.meta".toList ∨ suf = ".meta".toList → d.itrsWithG base suf = d.itrsWith base suf := by
    intro suf hsuf
    unfold MdsDir.itrsWithG MdsDir.itrsWith
    rw [hglob _ (slash_suffix hb (slash_itr hsuf))]
    have := itrs_match (t := base) (suf := suf) id id (fun a => ⟨[], rfl⟩) (compMatch (base ++ ('.' :: digitPat 10 ++ suf))) d.names
      (fun n _ => compMatch_itr n hb hsuf)
    rw [List.map_id, List.map_id] at this
    exact this
  apply rdmds_match (γ := Text) id id (fun _ => True)
  · unfold MdsDir.scanG MdsDir.scan
    rw [hitr _ (.inl rfl), hitr _ (.inr rfl)]
  · intro it
    refine ⟨d.metafiles (nameOf base it), fun _ _ => trivial, ?_, by rw [List.map_id]⟩
    have hb' : Spec.Plain (nameOf base it) := by
      cases it with
      | none => exact hb
      | some n => exact plain_itr hb n
    rw [List.map_id]
    unfold MdsDir.metafilesG MdsDir.metafiles
    rw [hglob _ (slash_suffix hb' slash_tile), hglob _ (slash_suffix hb' slash_meta)]
    rw [show d.names.filter (compMatch (nameOf base it ++ ('.' :: digitPat 3 ++ ('.' :: digitPat 3 ++ ".meta".toList)))) = _ from
      List.filter_congr fun n _ => compMatch_tile n hb']
    rw [show d.names.filter (compMatch (nameOf base it ++ ".meta".toList)) = _ from
      List.filter_congr fun n _ => compMatch_meta n hb', filter_one hd]
  · intro e _ nit iit st
    rfl

/-- **C143** (wildcards for directories): tiles spread over directories, read with a wildcard for the directory, give what the same tiles in one directory give.
`entries` are the files one directory below, as pairs of directory and file name; there may be others, above and further below; `flat` is the one directory with the files of all directories that `wild` stands for. -/
theorem C143_wildcard_directories (pf : Text → Py F) (d flat : MdsDir) (wild base : Text) (args : RdArgs F) (entries : List (Text × Text)) (m : Text → Bool)
    (hw : ∀ c ∈ wild, c ≠ '[' ∧ c ≠ '/') (hb : Spec.Plain base)
    (hnames : (d.names.filter fun n => n.count '/' = 1) = entries.map fun e => e.1 ++ '/' :: e.2) (hs : ∀ e ∈ entries, '/' ∉ e.1 ∧ '/' ∉ e.2)
    (hm : ∀ s, m s = true ↔ Spec.Expands wild s)
    (hflat : flat.names = (entries.filter fun e => m e.1).map fun e => e.2) (hnd : flat.names.Nodup)
    (hsame : ∀ e ∈ entries, m e.1 = true → flat.text e.2 = d.text (e.1 ++ '/' :: e.2) ∧ flat.data e.2 = d.data (e.1 ++ '/' :: e.2))
    (hpair : ∀ stem a b, m a = true → m b = true → (a, stem ++ "meta".toList) ∈ entries → (b, stem ++ "data".toList) ∈ entries → a = b) :
    rdmdsG pf d (wild ++ '/' :: base) args = rdmds pf flat base args := by
  have hws : '/' ∉ wild := fun h => (hw _ h).2 rfl
  have hin : ∀ e ∈ entries, e.1 ++ '/' :: e.2 ∈ d.names := fun e he =>
    (List.mem_filter.1 (hnames ▸ List.mem_map.2 ⟨e, he, rfl⟩ : _ ∈ d.names.filter fun n => n.count '/' = 1)).1
  have hwm : ∀ s, compMatch wild s = m s := fun s => by
    rw [Bool.eq_iff_iff, hm s, compMatch_shell s (fun c hc => (hw c hc).1)]
  have hglob : ∀ t q : Text, '/' ∉ t ++ q → d.globbed ((wild ++ '/' :: t) ++ q) =
      ((entries.filter fun e => m e.1).filter fun e => compMatch (t ++ q) e.2).map fun e => e.1 ++ '/' :: e.2 := by
    intro t q hp
    have hc : ((wild ++ '/' :: t) ++ q).count '/' = 1 := by
      rw [List.append_assoc, List.cons_append]
      exact count_one hws hp
    rw [globbed_depth, hc, hnames, List.filter_map, List.filter_filter]
    congr 1
    apply List.filter_congr
    intro e he
    show pathMatch ((wild ++ '/' :: t) ++ q) (e.1 ++ '/' :: e.2) = _
    rw [List.append_assoc, List.cons_append, pathMatch_dir hws hp (hs e he).1 (hs e he).2, hwm, Bool.and_comm]
  have hitr : ∀ suf : Text, suf = ".001.001.meta".toList ∨ suf = ".meta".toList → d.itrsWithG (wild ++ '/' :: base) suf = flat.itrsWith base suf := by
    intro suf hsuf
    unfold MdsDir.itrsWithG MdsDir.itrsWith
    rw [hglob _ _ (slash_suffix hb (slash_itr hsuf)), hflat]
    exact itrs_match (t := base) (suf := suf) (fun e : Text × Text => e.1 ++ '/' :: e.2) (fun e => e.2) (fun a => ⟨a.1 ++ ['/'], by simp⟩)
      (fun e => compMatch (base ++ ('.' :: digitPat 10 ++ suf)) e.2) _ (fun n _ => compMatch_itr n.2 hb hsuf)
  apply rdmds_match (γ := Text × Text) (fun e => e.1 ++ '/' :: e.2) (fun e => e.2)
    (fun e => e ∈ entries ∧ m e.1 = true ∧ ∃ stem, e.2 = stem ++ "meta".toList)
  · unfold MdsDir.scanG MdsDir.scan
    rw [hitr _ (.inl rfl), hitr _ (.inr rfl)]
  · intro it
    have hb' : Spec.Plain (nameOf base it) := by
      cases it with
      | none => exact hb
      | some n => exact plain_itr hb n
    have hn : nameOf (wild ++ '/' :: base) it = wild ++ '/' :: nameOf base it := by
      cases it with
      | none => rfl
      | some n => simp [nameOf]
    rw [hn]
    generalize nameOf base it = t at hb' ⊢
    have f1 : flat.names.filter (fun n => t.isPrefixOf n && isTileSuffix (n.drop t.length)) =
        ((entries.filter fun e => m e.1).filter fun e => compMatch (t ++ ('.' :: digitPat 3 ++ ('.' :: digitPat 3 ++ ".meta".toList))) e.2).map fun e => e.2 := by
      rw [hflat, List.filter_map]
      congr 1
      exact List.filter_congr fun e _ => (compMatch_tile e.2 hb').symm
    have f2 : (if t ++ ".meta".toList ∈ flat.names then [t ++ ".meta".toList] else []) =
        ((entries.filter fun e => m e.1).filter fun e => compMatch (t ++ ".meta".toList) e.2).map fun e => e.2 := by
      rw [← filter_one hnd, hflat, List.filter_map]
      congr 1
      exact List.filter_congr fun e _ => (compMatch_meta e.2 hb').symm
    unfold MdsDir.metafilesG MdsDir.metafiles
    rw [hglob _ _ (slash_suffix hb' slash_tile), hglob _ _ (slash_suffix hb' slash_meta), f1, f2]
    have o1 : ∀ e ∈ (entries.filter fun e => m e.1).filter fun e => compMatch (t ++ ('.' :: digitPat 3 ++ ('.' :: digitPat 3 ++ ".meta".toList))) e.2,
        e ∈ entries ∧ m e.1 = true ∧ ∃ stem, e.2 = stem ++ "meta".toList := by
      intro e he
      rw [List.mem_filter, List.mem_filter, compMatch_tile e.2 hb'] at he
      exact ⟨he.1.1, he.1.2, tile_meta he.2⟩
    have o2 : ∀ e ∈ (entries.filter fun e => m e.1).filter fun e => compMatch (t ++ ".meta".toList) e.2,
        e ∈ entries ∧ m e.1 = true ∧ ∃ stem, e.2 = stem ++ "meta".toList := by
      intro e he
      rw [List.mem_filter, List.mem_filter, compMatch_meta e.2 hb', decide_eq_true_eq] at he
      exact ⟨he.1.1, he.1.2, t ++ ['.'], by rw [he.2]; simp⟩
    generalize ((entries.filter fun e => m e.1).filter fun e => compMatch (t ++ ('.' :: digitPat 3 ++ ('.' :: digitPat 3 ++ ".meta".toList))) e.2) = L1 at o1 ⊢
    generalize ((entries.filter fun e => m e.1).filter fun e => compMatch (t ++ ".meta".toList) e.2) = L2 at o2 ⊢
    cases L1 with
    | nil => exact ⟨L2, o2, rfl, rfl⟩
    | cons e L => exact ⟨e :: L, o1, rfl, rfl⟩
  · rintro ⟨a, n⟩ ⟨he, ha, stem, hn⟩ nit iit st
    dsimp only at ha hn ⊢
    subst hn
    have hmem : a ++ '/' :: (stem ++ "meta".toList) ∈ d.names := hin _ he
    have hmem' : stem ++ "meta".toList ∈ flat.names := by rw [hflat]; exact List.mem_map.2 ⟨_, List.mem_filter.2 ⟨he, ha⟩, rfl⟩
    have htext : d.openText (a ++ '/' :: (stem ++ "meta".toList)) = flat.openText (stem ++ "meta".toList) := by
      unfold MdsDir.openText
      rw [if_pos hmem, if_pos hmem', (hsame _ he ha).1]
    have hdata : d.openData (a ++ '/' :: (stem ++ "data".toList)) = flat.openData (stem ++ "data".toList) := by
      unfold MdsDir.openData
      by_cases hx : stem ++ "data".toList ∈ flat.names
      · have hx' := hx
        rw [hflat] at hx'
        obtain ⟨⟨b, n⟩, h1, h2⟩ := List.mem_map.1 hx'
        obtain ⟨h1, hbm⟩ := List.mem_filter.1 h1
        dsimp only at h2 hbm
        subst h2
        obtain rfl := hpair stem a b ha hbm he h1
        rw [if_pos hx, if_pos (hin _ h1), (hsame _ h1 hbm).2]
      · rw [if_neg hx, if_neg]
        intro hy
        have hsl : '/' ∉ stem ++ "data".toList := by
          intro h
          rcases List.mem_append.1 h with h | h
          · exact (hs _ he).2 (List.mem_append_left _ h)
          · revert h; decide
        replace hy : a ++ '/' :: (stem ++ "data".toList) ∈ d.names.filter fun n => n.count '/' = 1 :=
          List.mem_filter.2 ⟨hy, decide_eq_true (count_one (hs _ he).1 hsl)⟩
        rw [hnames] at hy
        obtain ⟨⟨b, n⟩, h1, h2⟩ := List.mem_map.1 hy
        dsimp only at h2
        have := congrArg comps h2
        rw [comps_slash _ (hs _ h1).1, comps_slash _ (hs _ he).1, comps_plain (hs _ h1).2, comps_plain hsl] at this
        injection this with e1 e2
        injection e2 with e2
        dsimp only at e1 e2
        subst e1 e2
        exact hx (by rw [hflat]; exact List.mem_map.2 ⟨_, List.mem_filter.2 ⟨h1, ha⟩, rfl⟩)
    have hdn : ∀ s : Text, (s ++ "meta".toList).take ((s ++ "meta".toList).length - 4) ++ "data".toList = s ++ "data".toList := by
      intro s
      rw [show (s ++ "meta".toList).length - 4 = s.length by rw [List.length_append]; simp, List.take_left]
    have hd1 := hdn (a ++ '/' :: stem)
    rw [List.append_assoc, List.append_assoc, List.cons_append, List.cons_append] at hd1
    unfold tileStep
    rw [htext, hd1, hdn]
    dsimp only
    rw [hdata]

end

/-! ## Cases -/

namespace ExGlob
open ExTiles

/-- The tiles of the case of C106 in two directories `run1` and `run2`, and a file of the same field in a directory the wildcard does not stand for;
`spread` has also a file above and one further below. -/
def entries : List (Text × Text) :=
  [("run1".toList, data1), ("old".toList, "T.003.001.meta".toList), ("run2".toList, name2), ("run1".toList, name1), ("run2".toList, data2)]

def wild : Text := "run*".toList

def spread : MdsDir := ⟨"run3".toList :: (entries.map fun e => e.1 ++ '/' :: e.2) ++ ["run1/T.001.001.meta/x".toList], fun n => dir.text (n.drop 5), fun n => dir.data (n.drop 5)⟩

/-- The case of `C143_wildcard_directories`: a shell wildcard, the tiles in two directories, and the whole field as from one directory. -/
example (args : RdArgs Toy) : rdmdsG ExTiles.pf spread "run*/T".toList args = rdmds ExTiles.pf dir "T".toList args :=
  C143_wildcard_directories ExTiles.pf spread dir wild "T".toList args entries (compMatch wild) (by decide +kernel) (by unfold Spec.Plain; decide +kernel) (by decide +kernel)
    (by decide +kernel) (fun s => compMatch_shell s (by decide +kernel)) (by decide +kernel) (by decide +kernel)
    (by
      intro e he
      simp only [entries, List.mem_cons, List.not_mem_nil, or_false] at he
      rcases he with rfl | rfl | rfl | rfl | rfl
      · exact fun _ => ⟨rfl, rfl⟩
      · intro h; exact absurd h (by decide +kernel)
      · exact fun _ => ⟨rfl, rfl⟩
      · exact fun _ => ⟨rfl, rfl⟩
      · exact fun _ => ⟨rfl, rfl⟩)
    (by
      have key : ∀ x ∈ entries, ∀ y ∈ entries, compMatch wild x.1 = true → compMatch wild y.1 = true →
          x.2.take (x.2.length - 4) = y.2.take (y.2.length - 4) → x.1 = y.1 := by decide +kernel
      intro stem a b ha hb h1 h2
      refine key _ h1 _ h2 ha hb ?_
      have : ∀ t : Text, t.length = 4 → (stem ++ t).take ((stem ++ t).length - 4) = stem := by
        intro t ht
        rw [show (stem ++ t).length - 4 = stem.length by rw [List.length_append]; omega, List.take_left]
      exact (this _ rfl).trans (this _ rfl).symm)

/-- What is read: the values of both tiles, and the fill value between them. -/
example : (rdmdsG ExTiles.pf spread "run*/T".toList { endian := .big, fill := ⟨7⟩ }).map (fun a => (a.shape, a.toList.map (·.bits.toNat))) =
    .ok ([2, 2, 2, 3], [100, 7, 200, 101, 7, 201, 102, 7, 202, 103, 7, 203, 104, 7, 204, 105, 7, 205, 106, 7, 206, 107, 7, 207]) := by
  decide +kernel

/-- The case of `C143_plain_name`. -/
example (args : RdArgs Toy) : rdmdsG ExTiles.pf dir "T".toList args = rdmds ExTiles.pf dir "T".toList args :=
  C143_plain_name _ _ _ args (by decide +kernel) (by decide +kernel) (by unfold Spec.Plain; decide +kernel)

/-- The directory part of the name in `Spec.Expands`: `run*` stands for `run`, `run1` and not for `old` or `.run1`; `*` not for hidden names. -/
example : Spec.Expands wild "run".toList ∧ Spec.Expands wild "run1".toList ∧ ¬ Spec.Expands wild "old".toList ∧ ¬ Spec.Expands "*".toList ".run1".toList := by
  refine ⟨?_, ?_, ?_, ?_⟩ <;> rw [← compMatch_shell _ (by decide +kernel)] <;> decide +kernel

end ExGlob

end SG
