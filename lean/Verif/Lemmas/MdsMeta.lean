import Verif.Model.MdsMeta
/-! Lemmas on the text functions of `mds.py`. -/

set_option linter.unusedSectionVars false
namespace SG
variable {F : Type}

/-! ## Lines -/

theorem linesOf_line (l t : Text) (h : '\n' ∉ l) : linesOf (l ++ '\n' :: t) = (l ++ ['\n']) :: linesOf t := by
  induction l with
  | nil => simp [linesOf]
  | cons c l ih =>
    have hc : c ≠ '\n' := fun e => h (by simp [e])
    have ih := ih (fun hm => h (by simp [hm]))
    show linesOf (c :: (l ++ '\n' :: t)) = _
    conv => lhs; unfold linesOf
    rw [if_neg hc, ih]
    rfl

/-! ## Stripping -/

theorem dropWhile_all {p : Char → Bool} {a b : Text} (ha : a.all p = true) : (a ++ b).dropWhile p = b.dropWhile p := by
  induction a with
  | nil => rfl
  | cons c a ih =>
    simp only [List.all_cons, Bool.and_eq_true] at ha
    show (c :: (a ++ b)).dropWhile p = _
    rw [List.dropWhile_cons, if_pos ha.1, ih ha.2]

theorem dropWhile_stop {p : Char → Bool} {b : Text} (hb : ∀ c ∈ b.head?, p c = false) : b.dropWhile p = b := by
  cases b with
  | nil => rfl
  | cons c b => rw [List.dropWhile_cons, if_neg (by rw [hb c rfl]; decide)]

theorem rstrip_all {p : Char → Bool} {a b : Text} (hb : b.all p = true) (ha : ∀ c ∈ a.getLast?, p c = false) :
    rstrip p (a ++ b) = a := by
  unfold rstrip
  rw [List.reverse_append, dropWhile_all (by rw [List.all_reverse]; exact hb), dropWhile_stop, List.reverse_reverse]
  rw [List.head?_reverse]; exact ha

theorem rstrip_none {p : Char → Bool} {a : Text} (ha : ∀ c ∈ a.getLast?, p c = false) : rstrip p a = a := by
  have := rstrip_all (p := p) (a := a) (b := []) rfl ha
  rwa [List.append_nil] at this

theorem strip_core {p : Char → Bool} {a b c : Text} (ha : a.all p = true) (hc : c.all p = true)
    (h1 : ∀ x ∈ b.head?, p x = false) (h2 : ∀ x ∈ b.getLast?, p x = false) (hb : b ≠ []) : strip p (a ++ b ++ c) = b := by
  unfold strip lstrip
  rw [List.append_assoc, dropWhile_all ha, dropWhile_stop, rstrip_all hc h2]
  cases b with
  | nil => exact absurd rfl hb
  | cons x b => exact h1

theorem takeWhile_stop {p : Char → Bool} {a b : Text} (ha : a.all p = true) (hb : ∀ c ∈ b.head?, p c = false) :
    (a ++ b).takeWhile p = a ∧ (a ++ b).dropWhile p = b := by
  constructor
  · induction a with
    | nil =>
      cases b with
      | nil => rfl
      | cons c b => rw [List.nil_append, List.takeWhile_cons, if_neg (by rw [hb c rfl]; decide)]
    | cons c a ih =>
      simp only [List.all_cons, Bool.and_eq_true] at ha
      show (c :: (a ++ b)).takeWhile p = _
      rw [List.takeWhile_cons, if_pos ha.1, ih ha.2]
  · rw [dropWhile_all ha, dropWhile_stop hb]

theorem all_replicate {p : Char → Bool} {c : Char} (h : p c = true) (n : Nat) : (List.replicate n c).all p = true := by
  rw [List.all_eq_true]
  intro x hx
  rw [(List.mem_replicate.1 hx).2]; exact h

/-! ## Comments -/

/-- No comment or string begins here. -/
def Plain (s : Text) : Prop := ∀ c ∈ s, c ≠ '/' ∧ c ≠ '\'' ∧ c ≠ '"'

instance (s : Text) : Decidable (Plain s) := by unfold Plain; infer_instance

theorem Plain.append {a b : Text} (ha : Plain a) (hb : Plain b) : Plain (a ++ b) := by
  intro c hc
  rcases List.mem_append.1 hc with h | h
  · exact ha c h
  · exact hb c h

theorem Plain.digits {n : Nat} : Plain (natText n) := by
  intro c hc
  have := natText_digit n c hc
  refine ⟨?_, ?_, ?_⟩ <;> (rintro rfl; revert this; decide)

theorem Plain.blanks {n : Nat} : Plain (List.replicate n ' ') := by
  intro c hc
  rw [(List.mem_replicate.1 hc).2]; decide

theorem Plain.pad {w n : Nat} : Plain (padLeft w (natText n)) := Plain.blanks.append Plain.digits

theorem stripGo_plain {s t : Text} (h : Plain s) : stripGo .normal (s ++ t) = s ++ stripGo .normal t := by
  induction s with
  | nil => rfl
  | cons c s ih =>
    obtain ⟨h1, h2, h3⟩ := h c (by simp)
    have ih := ih (fun x hx => h x (by simp [hx]))
    show stripGo .normal (c :: (s ++ t)) = _
    conv => lhs; unfold stripGo
    rw [if_neg (fun hh => h1 hh.1), if_neg (fun hh => h1 hh.1), if_neg (fun hh => hh.1.elim h2 h3), ih]
    rfl

theorem stripComments_plain {s : Text} (h : Plain s) : stripComments s = s := by
  have := stripGo_plain (t := []) h
  rw [List.append_nil] at this
  unfold stripComments
  rw [this]
  simp [stripGo]

/-- No quote or backslash. -/
def Unquoted (s : Text) : Prop := ∀ c ∈ s, c ≠ '\'' ∧ c ≠ '\\'

instance (s : Text) : Decidable (Unquoted s) := by unfold Unquoted; infer_instance

theorem closesStr_unquoted {x t : Text} (h : Unquoted x) : closesStr '\'' (x ++ '\'' :: t) = true := by
  induction x with
  | nil => conv => lhs; unfold closesStr
           rw [List.nil_append]; exact if_pos rfl
  | cons c x ih =>
    obtain ⟨h1, h2⟩ := h c (by simp)
    show closesStr '\'' (c :: (x ++ '\'' :: t)) = true
    conv => lhs; unfold closesStr
    rw [if_neg h1, if_neg h2]
    exact ih (fun y hy => h y (by simp [hy]))

theorem stripGo_str {x t : Text} (h : Unquoted x) :
    stripGo (.str '\'') (x ++ '\'' :: t) = x ++ '\'' :: stripGo .normal t := by
  induction x with
  | nil => simp [stripGo]
  | cons c x ih =>
    obtain ⟨h1, h2⟩ := h c (by simp)
    show stripGo (.str '\'') (c :: (x ++ '\'' :: t)) = _
    conv => lhs; unfold stripGo
    rw [if_neg h1, if_neg h2, ih (fun y hy => h y (by simp [hy]))]
    rfl

theorem stripGo_quoted {x t : Text} (h : Unquoted x) :
    stripGo .normal ('\'' :: x ++ '\'' :: t) = '\'' :: x ++ '\'' :: stripGo .normal t := by
  show stripGo .normal ('\'' :: (x ++ '\'' :: t)) = _
  conv => lhs; unfold stripGo
  rw [if_neg (by simp), if_neg (by simp), if_pos ⟨Or.inl rfl, closesStr_unquoted h⟩, stripGo_str h]
  rfl

/-! ## Splitting at commas and spaces -/

/-- A separator: comma or space, then spaces. -/
def IsSep (s : Text) : Prop := ∃ c n, s = c :: List.replicate n ' ' ∧ (c = ',' ∨ c = ' ')

/-- A token. -/
def IsTok (t : Text) : Prop := t ≠ [] ∧ ∀ c ∈ t, c ≠ ' ' ∧ c ≠ ','

theorem IsTok.natText (n : Nat) : IsTok (natText n) := by
  refine ⟨natText_ne_nil n, fun c hc => ?_⟩
  have := natText_digit n c hc
  constructor <;> (rintro rfl; revert this; decide)

theorem splitGo_tok {t cur rest : Text} (h : ∀ c ∈ t, c ≠ ' ' ∧ c ≠ ',') :
    splitGo false cur (t ++ rest) = splitGo false (cur ++ t) rest := by
  induction t generalizing cur with
  | nil => simp
  | cons c t ih =>
    obtain ⟨h1, h2⟩ := h c (by simp)
    show splitGo false cur (c :: (t ++ rest)) = _
    conv => lhs; unfold splitGo
    rw [if_neg (fun hh => h1 hh.2), if_neg (fun hh => hh.elim h2 h1), ih (fun x hx => h x (by simp [hx]))]
    simp

theorem splitGo_blanks {n : Nat} {rest : Text} : splitGo true [] (List.replicate n ' ' ++ rest) = splitGo true [] rest := by
  induction n with
  | zero => rfl
  | succ n ih =>
    show splitGo true [] (' ' :: (List.replicate n ' ' ++ rest)) = _
    rw [← ih]
    conv => lhs; unfold splitGo
    rw [if_pos ⟨rfl, rfl⟩]

theorem splitGo_true_tok {t rest : Text} (h : IsTok t) : splitGo true [] (t ++ rest) = splitGo false t rest := by
  obtain ⟨hne, hc⟩ := h
  cases t with
  | nil => exact absurd rfl hne
  | cons c t =>
    obtain ⟨h1, h2⟩ := hc c (by simp)
    show splitGo true [] (c :: (t ++ rest)) = _
    conv => lhs; unfold splitGo
    rw [if_neg (fun hh => h1 hh.2), if_neg (fun hh => hh.elim h2 h1), splitGo_tok (fun x hx => hc x (by simp [hx]))]
    rfl

/-- Text with separators and tokens. -/
def glue (l : List (Text × Text)) : Text := l.flatMap fun x => x.1 ++ x.2

theorem splitCS_glue {t : Text} {l : List (Text × Text)} (ht : IsTok t) (hl : ∀ x ∈ l, IsSep x.1 ∧ IsTok x.2) :
    splitCS (t ++ glue l) = t :: l.map (·.2) := by
  have key : ∀ (l : List (Text × Text)) (cur : Text), (∀ x ∈ l, IsSep x.1 ∧ IsTok x.2) →
      splitGo false cur (glue l) = cur :: l.map (·.2) := by
    intro l
    induction l with
    | nil => intro cur _; simp [glue, splitGo]
    | cons x l ih =>
      intro cur hl
      obtain ⟨⟨c, n, hs, hc⟩, htok⟩ := hl x (by simp)
      have e : glue (x :: l) = c :: (List.replicate n ' ' ++ (x.2 ++ glue l)) := by
        simp [glue, hs]
      rw [e]
      conv => lhs; unfold splitGo
      rw [if_neg (fun hh => by cases hh.1), if_pos hc, splitGo_blanks, splitGo_true_tok htok,
        ih _ (fun y hy => hl y (by simp [hy]))]
      rfl
  unfold splitCS
  rw [splitGo_tok ht.2, List.nil_append]
  exact key l t hl

/-! ## Splitting at quotes -/

theorem splitQGo_tok {t cur rest : Text} (h : '\'' ∉ t) : splitQGo false cur (t ++ rest) = splitQGo false (cur ++ t) rest := by
  induction t generalizing cur with
  | nil => simp
  | cons c t ih =>
    show splitQGo false cur (c :: (t ++ rest)) = _
    conv => lhs; unfold splitQGo
    rw [if_neg (fun hh => h (by simp [hh.1])), ih (fun hm => h (by simp [hm]))]
    simp

theorem splitQGo_blanks {n : Nat} {cur rest : Text} :
    splitQGo true cur (List.replicate n ' ' ++ '\'' :: rest) = splitQGo false cur rest := by
  induction n with
  | zero => simp [splitQGo]
  | succ n ih =>
    show splitQGo true cur (' ' :: (List.replicate n ' ' ++ '\'' :: rest)) = _
    rw [← ih]
    conv => lhs; unfold splitQGo
    rw [if_neg (by decide)]

theorem isQSep_blanks {n : Nat} {rest : Text} : isQSep (List.replicate (n + 1) ' ' ++ '\'' :: rest) = true := by
  unfold isQSep
  rw [dropWhile_all (all_replicate rfl _)]
  simp [List.replicate_succ, isBlank]

/-- Quoted names with spaces before each. -/
def quoted (l : List (Nat × Text)) : Text := l.flatMap fun x => List.replicate (x.1 + 1) ' ' ++ '\'' :: x.2 ++ ['\'']

/-- The same text read from after the first quote to before the last one. -/
def quotedTail (l : List (Nat × Text)) : Text := l.flatMap fun x => '\'' :: List.replicate (x.1 + 1) ' ' ++ '\'' :: x.2

theorem quoted_cons (n : Nat) (t : Text) (l : List (Nat × Text)) :
    quoted ((n, t) :: l) = List.replicate (n + 1) ' ' ++ '\'' :: t ++ quotedTail l ++ ['\''] := by
  induction l generalizing n t with
  | nil => simp [quoted, quotedTail]
  | cons x l ih =>
    have := ih x.1 x.2
    have e : quoted ((n, t) :: x :: l) = List.replicate (n + 1) ' ' ++ '\'' :: t ++ ['\''] ++ quoted (x :: l) := by
      simp [quoted]
    rw [e, this]
    simp [quotedTail]

theorem splitQ_quotedTail {t : Text} {l : List (Nat × Text)} (ht : '\'' ∉ t) (hl : ∀ x ∈ l, '\'' ∉ x.2) :
    splitQ (t ++ quotedTail l) = t :: l.map (·.2) := by
  have key : ∀ (l : List (Nat × Text)) (cur : Text), (∀ x ∈ l, '\'' ∉ x.2) →
      splitQGo false cur (quotedTail l) = cur :: l.map (·.2) := by
    intro l
    induction l with
    | nil => intro cur _; simp [quotedTail, splitQGo]
    | cons x l ih =>
      intro cur hl
      have e : quotedTail (x :: l) = '\'' :: (List.replicate (x.1 + 1) ' ' ++ '\'' :: (x.2 ++ quotedTail l)) := by
        simp [quotedTail]
      rw [e]
      conv => lhs; unfold splitQGo
      rw [if_pos ⟨rfl, isQSep_blanks⟩, splitQGo_blanks, splitQGo_tok (hl x (by simp)), List.nil_append,
        ih _ (fun y hy => hl y (by simp [hy]))]
      rfl
  unfold splitQ
  rw [splitQGo_tok ht, List.nil_append]
  exact key l t hl

end SG
