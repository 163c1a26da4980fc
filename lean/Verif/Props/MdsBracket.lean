import Verif.Props.MdsGlob
import Verif.Model.RunGlob
/-! # C145: brackets in the name given to `rdmds` -/

set_option linter.unusedSectionVars false

namespace SG
variable {F : Type}

namespace Spec

/-- A character that stands for itself between brackets and outside. -/
def Ordinary (c : Char) : Prop := c ∉ (['!', ']', '[', '*', '?', '/', '.', '-'] : List Char)

end Spec

/-! ## Patterns -/

theorem closing_shorter {s b r : Text} (h : closing s = some (b, r)) : r.length < s.length := by
  have dw : ∀ (s : Text) {x : Char} {r : Text}, s.dropWhile (· ≠ ']') = x :: r → r.length < s.length := by
    intro s x r h
    have := (List.dropWhile_suffix (fun c : Char => decide (c ≠ ']')) (l := s)).length_le
    rw [h, List.length_cons] at this
    omega
  unfold closing at h
  dsimp only at h
  split at h <;> rename_i h'
  · injection h with h
    injection h with _ h
    subst h
    have l1 : ∀ s : Text, (match s with | '!' :: s => (['!'], s) | s => ([], s) : Text × Text).2.length ≤ s.length := by
      intro s; split <;> simp
    have l2 : ∀ s : Text, (match s with | ']' :: s => ([']'], s) | s => ([], s) : Text × Text).2.length ≤ s.length := by
      intro s; split <;> simp
    exact Nat.lt_of_lt_of_le (dw _ h') (Nat.le_trans (l2 _) (l1 _))
  · cases h

theorem parsePat_fuel : ∀ (f g : Nat) (s : Text), s.length ≤ f → s.length ≤ g → parsePat f s = parsePat g s
  | f, g, [], _, _ => by cases f <;> cases g <;> rfl
  | f + 1, g + 1, c :: s, hf, hg => by
    have hf' : s.length ≤ f := by rw [List.length_cons] at hf; omega
    have hg' : s.length ≤ g := by rw [List.length_cons] at hg; omega
    have ih := parsePat_fuel f g s hf' hg'
    by_cases h1 : c = '*'
    · subst h1; rw [parsePat, parsePat, ih]
    by_cases h2 : c = '?'
    · subst h2; rw [parsePat, parsePat, ih]
    by_cases h3 : c = '['
    · subst h3
      rw [parsePat, parsePat]
      cases h : closing s with
      | none => dsimp only; rw [ih]
      | some br =>
        obtain ⟨b, r⟩ := br
        have := closing_shorter h
        have ih := parsePat_fuel f g r (by omega) (by omega)
        rcases b with _ | ⟨x, b⟩
        · dsimp only; rw [ih]
        · by_cases hx : x = '!'
          · subst hx; show Pat.cls true (clsRanges b) :: parsePat f r = Pat.cls true (clsRanges b) :: parsePat g r; rw [ih]
          · split
            · rename_i h; cases h
            · rename_i h; injection h with h; injection h with h _; injection h with h _; exact absurd h hx
            · rename_i h; injection h with h; injection h with h1 h2; subst h1 h2; rw [ih]
    · rw [parsePat, parsePat, ih] <;> intros <;> simp_all

theorem closing_one {c : Char} (hc : Spec.Ordinary c) (y : Text) : closing (c :: ']' :: y) = some ([c], y) := by
  unfold Spec.Ordinary at hc
  simp only [List.mem_cons, not_or] at hc
  obtain ⟨h1, h2, -⟩ := hc
  unfold closing
  split
  rename_i p s h
  split at h
  · rename_i t he
    injection he with he
    exact absurd he h1
  · injection h with h h'
    subst h h'
    split
    rename_i q s h
    split at h
    · rename_i t he
      injection he with he
      exact absurd he h2
    · injection h with h h'
      subst h h'
      simp [h2]

theorem parse_ordinary {c : Char} (hc : Spec.Ordinary c) (f : Nat) (y : Text) : parsePat (f + 1) (c :: y) = .lit c :: parsePat f y := by
  unfold Spec.Ordinary at hc
  simp only [List.mem_cons, not_or] at hc
  rw [parsePat] <;> intros <;> simp_all

theorem ordinary_le (c x : Char) : (decide (c ≤ x) && decide (x ≤ c)) = decide (c = x) := by
  rw [Bool.eq_iff_iff, Bool.and_eq_true, decide_eq_true_eq, decide_eq_true_eq, decide_eq_true_eq]
  constructor
  · rintro ⟨h1, h2⟩
    exact Char.le_antisymm h1 h2
  · rintro rfl
    exact ⟨Char.le_refl _, Char.le_refl _⟩

/-- A bracket with one character matches like the character. -/
theorem match_bracket {c : Char} (hc : Spec.Ordinary c) (y : Text) : ∀ (x s : Text), (∀ a ∈ x, a ≠ '[') → ∀ (f g : Nat),
    (x ++ '[' :: c :: ']' :: y).length ≤ f → (x ++ c :: y).length ≤ g →
    patMatch (parsePat f (x ++ '[' :: c :: ']' :: y)) s = patMatch (parsePat g (x ++ c :: y)) s
  | [], s, _, f, g, hf, hg => by
    obtain ⟨f, rfl⟩ : ∃ k, f = k + 1 := ⟨f - 1, by simp at hf; omega⟩
    obtain ⟨g, rfl⟩ : ∃ k, g = k + 1 := ⟨g - 1, by simp at hg; omega⟩
    show patMatch (parsePat (f + 1) ('[' :: c :: ']' :: y)) s = patMatch (parsePat (g + 1) (c :: y)) s
    have e1 : parsePat (f + 1) ('[' :: c :: ']' :: y) = .cls false [(c, c)] :: parsePat g y := by
      rw [parsePat, closing_one hc]
      have : c ≠ '!' := fun h => hc (by rw [h]; decide)
      split
      · rename_i h; cases h
      · rename_i h; injection h with h; injection h with h _; injection h with h _; exact absurd h this
      · rename_i h; injection h with h; injection h with h1 h2; subst h1 h2
        rw [parsePat_fuel f g y (by simp at hf; omega) (by simp at hg; omega)]
        rfl
    rw [e1, parse_ordinary hc]
    cases s with
    | nil => rfl
    | cons a s =>
      show ((false != [(c, c)].any fun r => decide (r.1 ≤ a) && decide (a ≤ r.2)) && _) = (decide (c = a) && _)
      rw [List.any_cons, List.any_nil, Bool.or_false, ordinary_le]
      simp
  | a :: x, s, hx, f, g, hf, hg => by
    obtain ⟨f, rfl⟩ : ∃ k, f = k + 1 := ⟨f - 1, by simp at hf; omega⟩
    obtain ⟨g, rfl⟩ : ∃ k, g = k + 1 := ⟨g - 1, by simp at hg; omega⟩
    have ih := fun s => match_bracket hc y x s (fun b hb => hx b (List.mem_cons_of_mem _ hb)) f g (by simp at hf ⊢; omega) (by simp at hg ⊢; omega)
    show patMatch (parsePat (f + 1) (a :: (x ++ '[' :: c :: ']' :: y))) s = patMatch (parsePat (g + 1) (a :: (x ++ c :: y))) s
    by_cases h1 : a = '*'
    · subst h1
      rw [parsePat, parsePat, patMatch, patMatch]
      congr 1
      funext s
      exact ih s
    by_cases h2 : a = '?'
    · subst h2
      rw [parsePat, parsePat, patMatch.eq_def, patMatch.eq_def (.any :: _)]
      dsimp only
      cases s with
      | nil => rfl
      | cons b s => exact ih s
    · have h3 := hx a List.mem_cons_self
      have e : ∀ k t, parsePat (k + 1) (a :: t) = .lit a :: parsePat k t := by
        intro k t
        rw [parsePat] <;> intros <;> simp_all
      rw [e, e]
      cases s with
      | nil => rfl
      | cons b s =>
        show (decide (a = b) && _) = (decide (a = b) && _)
        rw [ih s]

theorem compMatch_bracket {c : Char} (hc : Spec.Ordinary c) {x : Text} (hx : ∀ a ∈ x, a ≠ '[') (y n : Text) :
    compMatch (x ++ '[' :: c :: ']' :: y) n = compMatch (x ++ c :: y) n := by
  unfold compMatch
  rw [match_bracket hc y x n hx _ _ (Nat.le_refl _) (Nat.le_refl _)]
  congr 2
  cases x with
  | nil =>
    have : c ≠ '.' := fun h => hc (by rw [h]; decide)
    simp [this]
  | cons a x => rfl

/-! ## Paths -/

theorem comps_ne : ∀ t : Text, ∃ w ws, comps t = w :: ws
  | [] => ⟨[], [], rfl⟩
  | c :: s => by
    obtain ⟨w, ws, h⟩ := comps_ne s
    rw [comps, h]
    split
    · exact ⟨_, _, rfl⟩
    · exact ⟨_, _, rfl⟩

theorem comps_cons {c : Char} (hc : c ≠ '/') {t w : Text} {ws : List Text} (h : comps t = w :: ws) : comps (c :: t) = (c :: w) :: ws := by
  rw [comps, if_neg hc, h]

theorem path_bracket {c : Char} (hc : Spec.Ordinary c) (y : Text) : ∀ (x : Text), (∀ a ∈ x, a ≠ '[') →
    ∃ (pre : List Text) (l h : Text) (ws : List Text), (∀ a ∈ l, a ≠ '[') ∧ comps (x ++ '[' :: c :: ']' :: y) = pre ++ (l ++ '[' :: c :: ']' :: h) :: ws ∧
      comps (x ++ c :: y) = pre ++ (l ++ c :: h) :: ws
  | [], _ => by
    obtain ⟨h, ws, e⟩ := comps_ne y
    have hs : c ≠ '/' := fun h => hc (by rw [h]; decide)
    exact ⟨[], [], h, ws, fun _ h => absurd h List.not_mem_nil,
      comps_cons (by decide) (comps_cons hs (comps_cons (by decide) e)), comps_cons hs e⟩
  | a :: x, hx => by
    obtain ⟨pre, l, h, ws, hl, e1, e2⟩ := path_bracket hc y x (fun b hb => hx b (List.mem_cons_of_mem _ hb))
    have ha := hx a List.mem_cons_self
    show ∃ (pre : List Text) (l h : Text) (ws : List Text), _ ∧ comps (a :: (x ++ '[' :: c :: ']' :: y)) = _ ∧ comps (a :: (x ++ c :: y)) = _
    by_cases hs : a = '/'
    · exact ⟨[] :: pre, l, h, ws, hl, by rw [comps, if_pos hs, e1]; rfl, by rw [comps, if_pos hs, e2]; rfl⟩
    · cases pre with
      | nil =>
        refine ⟨[], a :: l, h, ws, ?_, comps_cons hs e1, comps_cons hs e2⟩
        intro b hb
        rcases List.mem_cons.1 hb with rfl | hb
        · exact ha
        · exact hl b hb
      | cons w pre => exact ⟨(a :: w) :: pre, l, h, ws, hl, comps_cons hs e1, comps_cons hs e2⟩

theorem zip_all_eq {P : Text → Text → Bool} {u v : Text} (huv : ∀ n, P u n = P v n) (ws : List Text) : ∀ (pre ns : List Text),
    (((pre ++ u :: ws).zip ns).all fun x => P x.1 x.2) = (((pre ++ v :: ws).zip ns).all fun x => P x.1 x.2)
  | [], [] => rfl
  | [], n :: ns => by
    show (P u n && _) = (P v n && _)
    rw [huv]
  | _ :: _, [] => rfl
  | w :: pre, n :: ns => by
    show (P w n && (((pre ++ u :: ws).zip ns).all fun x => P x.1 x.2)) = (P w n && (((pre ++ v :: ws).zip ns).all fun x => P x.1 x.2))
    rw [zip_all_eq huv ws pre ns]

theorem pathMatch_bracket {c : Char} (hc : Spec.Ordinary c) {x : Text} (hx : ∀ a ∈ x, a ≠ '[') (y n : Text) :
    pathMatch (x ++ '[' :: c :: ']' :: y) n = pathMatch (x ++ c :: y) n := by
  obtain ⟨pre, l, h, ws, hl, e1, e2⟩ := path_bracket hc y x hx
  unfold pathMatch
  dsimp only
  rw [e1, e2, zip_all_eq (compMatch_bracket hc hl h)]
  simp only [List.length_append, List.length_cons]

theorem globbed_bracket {c : Char} (hc : Spec.Ordinary c) {x : Text} (hx : ∀ a ∈ x, a ≠ '[') (d : MdsDir) (y q : Text) :
    d.globbed ((x ++ '[' :: c :: ']' :: y) ++ q) = d.globbed ((x ++ c :: y) ++ q) := by
  unfold MdsDir.globbed
  congr 1
  funext n
  have := pathMatch_bracket hc hx (y ++ q) n
  rw [List.append_assoc, List.append_assoc]
  exact this

section
variable [PyFloat F] [F64 F] [F32 F]

/-- **C145** (brackets): `rdmds('x[c]y', ...)` is `rdmds('xcy', ...)`, whatever files there are. -/
theorem C145_brackets (pf : Text → Py F) (d : MdsDir) (x y : Text) (c : Char) (args : RdArgs F) (hx : ∀ a ∈ x, a ≠ '[') (hc : Spec.Ordinary c) :
    rdmdsG pf d (x ++ '[' :: c :: ']' :: y) args = rdmdsG pf d (x ++ c :: y) args := by
  have hm : ∀ t, d.metafilesG (x ++ '[' :: c :: ']' :: (y ++ t)) = d.metafilesG (x ++ c :: (y ++ t)) := by
    intro t
    unfold MdsDir.metafilesG
    rw [globbed_bracket hc hx, globbed_bracket hc hx]
  have hs : d.scanG (x ++ '[' :: c :: ']' :: y) = d.scanG (x ++ c :: y) := by
    unfold MdsDir.scanG MdsDir.itrsWithG
    rw [globbed_bracket hc hx, globbed_bracket hc hx]
  have hi : itrsOfG d (x ++ '[' :: c :: ']' :: y) args.itrs = itrsOfG d (x ++ c :: y) args.itrs := by
    cases args.itrs <;> simp only [itrsOfG, hs]
  have hstep : ∀ nit, itrStepG pf d (x ++ '[' :: c :: ']' :: y) args nit = itrStepG pf d (x ++ c :: y) args nit := by
    intro nit
    funext st z
    obtain ⟨it, i⟩ := z
    cases it with
    | none =>
      have := hm []
      rw [List.append_nil] at this
      show (match d.metafilesG (x ++ '[' :: c :: ']' :: y) with | [] => _ | files => _) = _
      rw [this]
      rfl
    | some k =>
      have := hm (itrText k)
      have e1 : (x ++ '[' :: c :: ']' :: y) ++ itrText k = x ++ '[' :: c :: ']' :: (y ++ itrText k) := by simp
      have e2 : (x ++ c :: y) ++ itrText k = x ++ c :: (y ++ itrText k) := by simp
      show (match d.metafilesG ((x ++ '[' :: c :: ']' :: y) ++ itrText k) with | [] => _ | files => _) =
        (match d.metafilesG ((x ++ c :: y) ++ itrText k) with | [] => _ | files => _)
      rw [e1, e2, this]
  unfold rdmdsG
  dsimp only
  rw [hi, hstep]

theorem metafiles_none {d : MdsDir} {z t : Text} (h : ∀ n ∈ d.names, ¬ z <+: n) : d.metafiles (z ++ t) = [] := by
  rw [List.eq_nil_iff_forall_not_mem]
  intro n hn
  obtain ⟨h1, h2 | ⟨-, h2⟩⟩ := mem_metafiles.1 hn
  · obtain ⟨a, b, c, d, e, f, -, h2⟩ := h2
    exact h n h1 ⟨t ++ ['.', a, b, c, '.', d, e, f, '.', 'm', 'e', 't', 'a'], by rw [h2]; simp⟩
  · exact h n h1 ⟨t ++ ['.', 'm', 'e', 't', 'a'], by rw [h2]; simp⟩

theorem scan_none {d : MdsDir} {z : Text} (h : ∀ n ∈ d.names, ¬ z <+: n) : d.scan z = [] := by
  have : ∀ suf, d.itrsWith z suf = [] := by
    intro suf
    unfold MdsDir.itrsWith
    rw [List.filterMap_eq_nil_iff]
    intro n hn
    dsimp only
    rw [if_neg]
    intro hh
    exact h n hn (List.isPrefixOf_iff_prefix.1 (Bool.and_eq_true_iff.1 hh).1)
  unfold MdsDir.scan
  dsimp only
  rw [this, this]
  rfl

theorem plain_around {x y : Text} {c : Char} (hx : Spec.Plain x) (hy : Spec.Plain y) (hc : Spec.Ordinary c) : Spec.Plain (x ++ c :: y) := by
  intro b hb
  rcases List.mem_append.1 hb with hb | hb
  · exact hx b hb
  · rcases List.mem_cons.1 hb with rfl | hb
    · unfold Spec.Ordinary at hc
      simp only [List.mem_cons, not_or] at hc
      exact ⟨hc.2.2.2.1, hc.2.2.2.2.1, hc.2.2.1, hc.2.2.2.2.2.1⟩
    · exact hy b hb

/-- **C145** (own files not found): files whose name has the brackets are never read: if no file has the name without the brackets, an iteration or none at all
gives IOError, and NaN or infinity the empty array, although the files are there. -/
theorem C145_own_files_not_found (pf : Text → Py F) (d : MdsDir) (x y : Text) (c : Char) (args : RdArgs F) (hx : Spec.Plain x) (hy : Spec.Plain y)
    (hc : Spec.Ordinary c) (hd : d.names.Nodup) (hs : ∀ n ∈ d.names, '/' ∉ n) (hno : ∀ n ∈ d.names, ¬ (x ++ c :: y) <+: n) :
    ((args.itrs = .noItr ∨ ∃ k, args.itrs = .one k) → rdmdsG pf d (x ++ '[' :: c :: ']' :: y) args = .error .ioError) ∧
    ((args.itrs = .all ∨ args.itrs = .last) → ∃ a, rdmdsG pf d (x ++ '[' :: c :: ']' :: y) args = .ok a ∧ a.shape = [0]) := by
  have hp : Spec.Plain (x ++ c :: y) := plain_around hx hy hc
  rw [C145_brackets pf d x y c args (fun a ha => (hx a ha).2.2.1) hc, C143_plain_name pf d _ args hd hs hp]
  have m0 := metafiles_none (t := []) hno
  rw [List.append_nil] at m0
  constructor
  · rintro (h | ⟨k, h⟩)
    · unfold rdmds
      rw [h]
      show ((match d.metafiles (x ++ c :: y) with | [] => _ | files => _ : Py _) >>= _ >>= _) = _
      rw [m0]
      rfl
    · unfold rdmds
      rw [h]
      show ((match d.metafiles ((x ++ c :: y) ++ itrText k) with | [] => _ | files => _ : Py _) >>= _ >>= _) = _
      rw [metafiles_none hno]
      rfl
  · rintro (h | h)
    · refine ⟨⟨[0], fun _ => Arith.zero⟩, ?_, rfl⟩
      have hi : itrsOf d (x ++ c :: y) args.itrs = [] := by rw [h]; show (d.scan _).map some = []; rw [scan_none hno]; rfl
      unfold rdmds
      rw [hi]
      rfl
    · refine ⟨⟨[0], fun _ => Arith.zero⟩, ?_, rfl⟩
      have hi : itrsOf d (x ++ c :: y) args.itrs = [] := by
        rw [h]; show ((d.scan _).drop _).map some = []; rw [scan_none hno]; rfl
      unfold rdmds
      rw [hi]
      rfl

/-! ## `mds2mitgrid` -/

/-- **C145** (`mds2mitgrid`, other directory): of a directory with brackets in its name `mds2mitgrid` reads nothing; it reads the directory without them. -/
theorem C145_mds2mitgrid_brackets (pf : Text → Py F) (d : MdsDir) (x y : Text) (c : Char) (hx : ∀ a ∈ x, a ≠ '[') (hc : Spec.Ordinary c) :
    mds2mitgridG pf d (x ++ '[' :: c :: ']' :: y) = mds2mitgridG pf d (x ++ c :: y) := by
  unfold mds2mitgridG
  congr 1
  funext s z
  unfold mdsFieldG
  have := C145_brackets pf d x (y ++ '/' :: z.1.text) c { fill := Arith.zero } hx hc
  rw [List.append_assoc, List.append_assoc]
  show (match rdmdsG pf d (x ++ '[' :: c :: ']' :: (y ++ '/' :: z.1.text)) _ with | .error _ => _ | .ok a => _) = _
  rw [this]
  rfl

theorem shell_plain : ∀ {t s : Text}, Spec.Plain t → (Spec.Shell t s ↔ s = t)
  | [], s, _ => by
    constructor
    · intro h; cases h; rfl
    · rintro rfl; exact .nil
  | c :: t, s, h => by
    have hc := h c List.mem_cons_self
    have ih := fun s => shell_plain (t := t) (s := s) (fun b hb => h b (List.mem_cons_of_mem _ hb))
    constructor
    · intro hs
      cases hs with
      | char _ _ _ hs => rw [(ih _).1 hs]
      | any _ hs => exact absurd rfl hc.2.1
      | none hs => exact absurd rfl hc.1
      | more _ hs => exact absurd rfl hc.1
    · rintro rfl
      exact .char c hc.1 hc.2.1 ((ih t).2 rfl)

theorem expands_plain {t s : Text} (h : Spec.Plain t) : Spec.Expands t s ↔ s = t := by
  unfold Spec.Expands
  rw [shell_plain h]
  constructor
  · exact fun h => h.1
  · rintro rfl
    exact ⟨rfl, id⟩

theorem plain_field (f : Field) : Spec.Plain f.text := by
  unfold Spec.Plain
  cases f <;> decide +kernel

/-- **C145** (`mds2mitgrid`, plain names): of a directory without special characters in its name `mds2mitgrid` reads exactly the files in it, whatever the other
directories have. -/
theorem C145_mds2mitgrid_own_directory (pf : Text → Py F) (d flat : MdsDir) (run : Text) (entries : List (Text × Text)) (hr : Spec.Plain run)
    (hnames : (d.names.filter fun n => n.count '/' = 1) = entries.map fun e => e.1 ++ '/' :: e.2) (hs : ∀ e ∈ entries, '/' ∉ e.1 ∧ '/' ∉ e.2)
    (hflat : flat.names = (entries.filter fun e => e.1 = run).map fun e => e.2) (hnd : flat.names.Nodup)
    (hsame : ∀ e ∈ entries, e.1 = run → flat.text e.2 = d.text (e.1 ++ '/' :: e.2) ∧ flat.data e.2 = d.data (e.1 ++ '/' :: e.2)) :
    mds2mitgridG pf d run = mds2mitgridDir pf flat := by
  unfold mds2mitgridG mds2mitgridDir
  congr 1
  funext s z
  unfold mdsFieldG mdsFieldDir
  rw [C143_wildcard_directories pf d flat run z.1.text { fill := Arith.zero } entries (fun s => decide (s = run)) (fun c hc => ⟨(hr c hc).2.2.1, (hr c hc).2.2.2⟩)
    (plain_field z.1) hnames hs
    (fun s => by rw [decide_eq_true_eq, expands_plain hr])
    hflat hnd (fun e he h => hsame e he (of_decide_eq_true h))
    (fun stem a b ha hb _ _ => (of_decide_eq_true ha).trans (of_decide_eq_true hb).symm)]
  rfl

theorem rdmds_no_files (pf : Text → Py F) (d : MdsDir) (base : Text) (fill : F) (h : d.names = []) : rdmds pf d base { fill := fill } = .error .ioError := by
  have m0 := metafiles_none (d := d) (z := base) (t := []) (by rw [h]; intro n hn; exact absurd hn List.not_mem_nil)
  rw [List.append_nil] at m0
  unfold rdmds
  show ((match d.metafiles base with | [] => _ | files => _ : Py _) >>= _ >>= _) = _
  rw [m0]
  rfl

/-- **C145** (`mds2mitgrid`, nothing read): if there is no directory with the name without the brackets, `mds2mitgrid` returns a grid without arrays and no
error, although the directory with the brackets is there. -/
theorem C145_mds2mitgrid_nothing (pf : Text → Py F) (d : MdsDir) (x y : Text) (c : Char) (entries : List (Text × Text)) (hx : Spec.Plain x) (hy : Spec.Plain y)
    (hc : Spec.Ordinary c) (hnames : (d.names.filter fun n => n.count '/' = 1) = entries.map fun e => e.1 ++ '/' :: e.2) (hs : ∀ e ∈ entries, '/' ∉ e.1 ∧ '/' ∉ e.2)
    (hno : ∀ e ∈ entries, e.1 ≠ x ++ c :: y) : mds2mitgridG pf d (x ++ '[' :: c :: ']' :: y) = .ok (Grid.allNone, 0, 0) := by
  have hf : (entries.filter fun e => e.1 = x ++ c :: y) = [] := by
    rw [List.filter_eq_nil_iff]
    intro e he h
    exact hno e he (of_decide_eq_true h)
  rw [C145_mds2mitgrid_brackets pf d x y c (fun a ha => (hx a ha).2.2.1) hc,
    C145_mds2mitgrid_own_directory pf d ⟨[], d.text, d.data⟩ (x ++ c :: y) entries (plain_around hx hy hc) hnames hs (by rw [hf]; rfl) List.nodup_nil
      (fun e he h => absurd h (hno e he))]
  unfold mds2mitgridDir
  have : ∀ (l : List (Field × Nat × Nat)) (s : Grid F × Nat × Nat), l.foldlM (mdsFieldDir pf ⟨[], d.text, d.data⟩) s = .ok s := by
    intro l
    induction l with
    | nil => intro s; rfl
    | cons a l ih =>
      intro s
      rw [List.foldlM_cons]
      unfold mdsFieldDir
      rw [rdmds_no_files pf _ _ _ rfl]
      exact ih s
  exact this _ _

end

/-! ## Cases -/

namespace ExBracket
open ExTiles

/-- A complete data set `T[1]`. -/
def own : MdsDir := ⟨["T[1].001.001.meta".toList, "T[1].001.001.data".toList], fun _ => text1, fun _ => bytesOf tile1⟩

/-- The same, and a data set `T1` with other values. -/
def both : MdsDir := ⟨["T[1].001.001.meta".toList, "T1.001.001.meta".toList, "T[1].001.001.data".toList, "T1.001.001.data".toList], fun _ => text1,
  fun n => if n = "T1.001.001.data".toList then bytesOf tile2 else bytesOf tile1⟩

theorem plain_T : Spec.Plain "T".toList := by unfold Spec.Plain; decide +kernel
theorem plain_nil : Spec.Plain [] := fun _ h => absurd h List.not_mem_nil
theorem ordinary_1 : Spec.Ordinary '1' := by unfold Spec.Ordinary; decide +kernel

example : rdmdsG ExTiles.pf own "T[1]".toList { fill := ⟨7⟩ } = .error .ioError :=
  (C145_own_files_not_found ExTiles.pf own "T".toList [] '1' { fill := ⟨7⟩ } plain_T plain_nil ordinary_1 (by decide +kernel) (by decide +kernel)
    (by decide +kernel)).1 (.inl rfl)

example (args : RdArgs Toy) : rdmdsG ExTiles.pf both "T[1]".toList args = rdmdsG ExTiles.pf both "T1".toList args :=
  C145_brackets ExTiles.pf both "T".toList [] '1' args (by decide +kernel) ordinary_1

/-- The data of `T1` are returned for `T[1]`. -/
example : (rdmdsG ExTiles.pf both "T[1]".toList { fill := ⟨7⟩ }).map (fun a => (a.shape, a.toList.take 4 |>.map (·.bits.toNat))) =
    .ok ([2, 2, 2, 3], [200, 7, 7, 201]) := by decide +kernel

/-- As for `T1`. -/
example : (rdmdsG ExTiles.pf both "T1".toList { fill := ⟨7⟩ }).map (fun a => a.shape) = .ok [2, 2, 2, 3] := by decide +kernel

/-- A directory with brackets. -/
example (args : RdArgs Toy) (d : MdsDir) : rdmdsG ExTiles.pf d "run[1]/T".toList args = rdmdsG ExTiles.pf d "run1/T".toList args :=
  C145_brackets ExTiles.pf d "run".toList "/T".toList '1' args (by decide +kernel) ordinary_1

/-- A run directory `run[1]` with a grid file and nothing else: a grid without arrays. -/
def runs : MdsDir := ⟨["run[1]/XC.001.001.meta".toList, "run[1]/XC.001.001.data".toList], fun _ => text1, fun _ => bytesOf tile1⟩

example : mds2mitgridG ExTiles.pf runs "run[1]".toList = .ok (Grid.allNone, 0, 0) :=
  C145_mds2mitgrid_nothing ExTiles.pf runs "run".toList [] '1' [("run[1]".toList, "XC.001.001.meta".toList), ("run[1]".toList, "XC.001.001.data".toList)]
    (by unfold Spec.Plain; decide +kernel) plain_nil ordinary_1 (by decide +kernel) (by decide +kernel) (by decide +kernel)

example (d : MdsDir) : mds2mitgridG ExTiles.pf d "run[1]".toList = mds2mitgridG ExTiles.pf d "run1".toList :=
  C145_mds2mitgrid_brackets ExTiles.pf d "run".toList [] '1' (by decide +kernel) ordinary_1

/-- Two runs beside each other. -/
def two : List (Text × Text) :=
  [("run1".toList, "XC.meta".toList), ("run2".toList, "XC.meta".toList), ("run1".toList, "XC.data".toList), ("run2".toList, "XC.data".toList)]

def twoDir : MdsDir := ⟨two.map fun e => e.1 ++ '/' :: e.2, fun _ => text1, fun n => if n = "run1/XC.data".toList then bytesOf tile1 else bytesOf tile2⟩

example : mds2mitgridG ExTiles.pf twoDir "run1".toList =
    mds2mitgridDir ExTiles.pf ⟨["XC.meta".toList, "XC.data".toList], fun _ => text1, fun n => twoDir.data ("run1/".toList ++ n)⟩ :=
  C145_mds2mitgrid_own_directory ExTiles.pf twoDir _ "run1".toList two (by unfold Spec.Plain; decide +kernel) rfl (by decide +kernel) (by decide +kernel)
    (by decide +kernel) (fun e _ h => by
      obtain ⟨a, b⟩ := e
      dsimp only at h
      subst h
      exact ⟨rfl, rfl⟩)

end ExBracket

end SG
