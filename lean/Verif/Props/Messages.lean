import Verif.Model.Messages
import Verif.Props.CommandCalls
/-! # C128: what the commands print -/
set_option linter.unusedSectionVars false
set_option linter.ambiguousOpen false

namespace SG.Cli
variable {F : Type} [PyFloat F] [F64 F]

/-! ## Specification -/

namespace Spec

/-- Is `--verbose` or `-v` on the line? -/
def loud (items : List Item) : Bool := items.any fun it => it.opt.long = "--verbose".toList

/-- The line without it. -/
def hush (items : List Item) : List Item := items.filter fun it => it.opt.long ≠ "--verbose".toList

/-- `what` the file `f` with these counts. -/
def announce (what : String) (f : Text) (ni nj : Nat) : Text :=
  what.toList ++ f ++ " with ni=".toList ++ natText ni ++ ", nj=".toList ++ natText nj ++ "...".toList

/-- What the lines printed say about the call `r` that computes the grid for the file `f`, and how the process ends: nothing unless asked; the last
two lines of a run that ends normally have the file and the counts of the grid written; `...done.` is printed by no other run, and a run whose call
raises does not announce any file. -/
structure Tells (what : String) (f : Text) (v : Bool) (r : Py (Grid F × Nat × Nat)) (out : List Text × End) : Prop where
  quiet : v = false → out.1 = []
  done : "...done.".toList ∈ out.1 ↔ v = true ∧ out.2 = .done
  counts : v = true → ∀ g ni nj, r = .ok (g, ni, nj) → ∃ pre, out.1 = pre ++ [announce what f ni nj, "...done.".toList]
  raised : ∀ e, r = .error e → ∀ h ni nj, announce what h ni nj ∉ out.1

/-- Sides by name. -/
def sideName : Edge → String
  | .N => "northern" | .S => "southern" | .E => "eastern" | .W => "western"

/-- The line about the sides along which two tiles meet. -/
def sides (a b : Edge) : Text := (sideName a ++ " edge of tile 'a' matches " ++ sideName b ++ " edge of tile 'b'").toList

/-- The line about the size of the result. -/
def resulting (ni nj ls lt : Nat) : Text :=
  "resulting grid will be ".toList ++ natText ni ++ " x ".toList ++ natText nj ++ " cells (lon/lat subscale = ".toList ++ natText ls ++
    "/".toList ++ natText lt ++ ")".toList

end Spec
open Spec

/-! ## The announcement can be read back -/

theorem digits_end {a b : Text} {c : Char} {m n : Nat} (hc : c.isDigit = false) (h : a ++ c :: natText m = b ++ c :: natText n) :
    a = b ∧ m = n := by
  have key : ∀ (x y : Text), (∀ d ∈ x, d.isDigit = true) → (∀ d ∈ y, d.isDigit = true) → ∀ a b : Text, x ++ c :: a = y ++ c :: b → a = b ∧ x = y := by
    intro x
    induction x with
    | nil =>
      intro y _ hy a b h
      cases y with
      | nil => exact ⟨(List.cons.inj h).2, rfl⟩
      | cons d y =>
        have := (List.cons.inj h).1
        have := hy d (by simp)
        simp_all
    | cons d x ih =>
      intro y hx hy a b h
      cases y with
      | nil =>
        have := (List.cons.inj h).1
        have := hx d (by simp)
        simp_all
      | cons d' y =>
        obtain ⟨e, h'⟩ := List.cons.inj h
        obtain ⟨h1, h2⟩ := ih y (fun z hz => hx z (by simp [hz])) (fun z hz => hy z (by simp [hz])) a b h'
        exact ⟨h1, by rw [e, h2]⟩
  have h' := congrArg List.reverse h
  simp only [List.reverse_append, List.reverse_cons, List.append_assoc, List.singleton_append] at h'
  obtain ⟨h1, h2⟩ := key _ _ (fun d hd => natText_digit m d (List.mem_reverse.1 hd)) (fun d hd => natText_digit n d (List.mem_reverse.1 hd)) _ _ h'
  exact ⟨List.reverse_inj.1 h1, natText_inj (List.reverse_inj.1 h2)⟩

/-- **C128**: the announcement tells which file is written and with which counts, whatever the name of the file. -/
theorem C128_announce_inj (what : String) (f f' : Text) (ni nj ni' nj' : Nat) (h : announce what f ni nj = announce what f' ni' nj') :
    f = f' ∧ ni = ni' ∧ nj = nj' := by
  unfold announce at h
  have h1 := List.append_cancel_right h
  have e : ∀ a : Text, ∀ n : Nat, a ++ ", nj=".toList ++ natText n = (a ++ ", nj".toList) ++ '=' :: natText n := by
    intro a n; simp
  rw [e, e] at h1
  obtain ⟨h2, rfl⟩ := digits_end (by decide) h1
  have h3 := List.append_cancel_right h2
  have e' : ∀ a : Text, ∀ n : Nat, a ++ " with ni=".toList ++ natText n = (a ++ " with ni".toList) ++ '=' :: natText n := by
    intro a n; simp
  rw [e', e'] at h3
  obtain ⟨h4, rfl⟩ := digits_end (by decide) h3
  exact ⟨List.append_cancel_left (List.append_cancel_right h4), rfl, rfl⟩

/-! ## Files and end do not depend on what is printed -/

theorem report_snd (v : Bool) (what : String) (pre : List Text) (w : World) (f : Option Text) (r : Py (Grid F × Nat × Nat)) :
    (report v what pre w f r).2 = writeOut w f r := by
  unfold report
  cases r with
  | error e => rfl
  | ok x =>
    obtain ⟨g, ni, nj⟩ := x
    cases v
    · rfl
    · cases f <;> rfl

theorem Ns.misses_of {ns : Ns F} (h : ∀ a b c d, ns.float "--lon1" = some a → ns.float "--lat1" = some b → ns.float "--lon2" = some c →
    ns.float "--lat2" = some d → False) : ns.misses = true := by
  unfold Ns.misses
  cases h1 : ns.float "--lon1" with
  | none => simp [h1]
  | some a =>
    cases h2 : ns.float "--lat1" with
    | none => simp [h2]
    | some b =>
      cases h3 : ns.float "--lon2" with
      | none => simp [h3]
      | some c =>
        cases h4 : ns.float "--lat2" with
        | none => simp [h4]
        | some d => exact (h a b c d h1 h2 h3 h4).elim

/-- **C128**: the programs that print leave the files and end as the ones that the other theorems are about, whatever the arguments. -/
theorem C128_same_runs (fmt : F → Text) (pf : Text → Option F) (pi : Text → Option Int) (csv : List Byte → Py (Mat F)) (geod : Geod F) (fuel : Nat)
    (args : List Text) (w : World) :
    (sgmkgridV fmt pf pi geod args w).2 = sgmkgrid pf pi geod args w ∧
    (sgregridV fmt pf pi csv geod fuel args w).map Prod.snd = sgregrid pf pi csv geod fuel args w ∧
    (sgaddfringeV pf pi geod args w).2 = sgaddfringe pf pi geod args w ∧
    (sgstitchV pf pi geod args w).2 = sgstitch pf pi geod args w := by
  refine ⟨?_, ?_, ?_, ?_⟩
  · unfold sgmkgridV sgmkgrid
    cases parseArgs pf pi mkgridParser args with
    | exit n => rfl
    | ok ns =>
      simp only
      split
      · rename_i hv
        split
        · exact report_snd ..
        · rename_i hno
          have hm := Ns.misses_of hno
          unfold mkgridCall
          rw [hv, hm]
          rfl
      · exact report_snd ..
  · unfold sgregridV sgregrid
    cases parseArgs pf pi regridParser args with
    | exit n => rfl
    | ok ns =>
      simp only
      rw [Option.map_map]
      congr 1
      funext r
      exact report_snd ..
  · unfold sgaddfringeV sgaddfringe
    cases parseArgs pf pi twoTilesParser args with
    | exit n => rfl
    | ok ns => exact report_snd ..
  · unfold sgstitchV sgstitch
    cases parseArgs pf pi twoTilesParser args with
    | exit n => rfl
    | ok ns => exact report_snd ..

/-! ## Flags of a line and of the same line without `-v` -/

theorem given_none {pf : Text → Option F} {pi : Text → Option Int} {items : List Item} {n : Text} (h : ∀ it ∈ items, it.opt.long ≠ n) :
    given pf pi items n = none := by
  unfold given
  rw [List.find?_eq_none.2 fun x hx => by simpa using h x (List.mem_reverse.1 hx)]
  rfl

theorem flag_loud {pf : Text → Option F} {pi : Text → Option Int} {P : Parser} (hP : P ∈ parsers) {items : List Item}
    (h : Readable pf pi P items) : Ns.flag (given pf pi items) "--verbose" = loud items := by
  cases hl : loud items with
  | true =>
    refine flag_given hP h verbose_kind fun e => ?_
    unfold loud at hl
    rw [List.any_eq_true] at hl
    obtain ⟨it, hm, he⟩ := hl
    exact (given_none_iff h.values _).1 e it hm (of_decide_eq_true he)
  | false =>
    unfold loud at hl
    rw [List.any_eq_false] at hl
    have : given pf pi items "--verbose".toList = none := given_none fun it hm e => hl it hm (decide_eq_true e)
    unfold Ns.flag
    rw [this]

theorem given_hush (pf : Text → Option F) (pi : Text → Option Int) (items : List Item) {n : Text} (hn : n ≠ "--verbose".toList) :
    given pf pi (hush items) n = given pf pi items n := by
  unfold given hush
  generalize "--verbose".toList = vb at hn
  rw [← List.filter_reverse, List.find?_filter]
  congr 2
  funext it
  by_cases e : it.opt.long = n
  · simp only [e, decide_not, ne_eq, decide_eq_false hn, Bool.not_false, decide_true, and_self]
  · simp only [e, decide_false, Bool.false_eq_true, and_false]

theorem readable_hush {pf : Text → Option F} {pi : Text → Option Int} {P : Parser} {items : List Item} (h : Readable pf pi P items) :
    Readable pf pi P (hush items) :=
  ⟨fun it hm => h.proper it (List.mem_filter.1 hm).1, fun it hm => h.values it (List.mem_filter.1 hm).1⟩

theorem loud_hush (items : List Item) : loud (hush items) = false := by
  unfold loud hush
  generalize "--verbose".toList = vb
  rw [List.any_eq_false]
  intro it hm e
  exact of_decide_eq_true (List.mem_filter.1 hm).2 (of_decide_eq_true e)

theorem asked_hush (items : List Item) : asked (hush items) = asked items := by
  have hn : "--strict".toList ≠ "--verbose".toList := by decide
  unfold asked hush
  generalize "--verbose".toList = vb at *
  generalize "--strict".toList = st at *
  rw [List.any_filter]
  congr 1
  funext it
  by_cases e : it.opt.long = st
  · simp only [e, decide_not, ne_eq, decide_eq_false hn, Bool.not_false, decide_true, Bool.and_self]
  · simp only [e, decide_false, Bool.and_false]

/-! ## Lines before the announcement -/

/-- A line that is neither an announcement nor `...done.` -/
def Plain (t : Text) : Prop := (∀ s, t ≠ 'w' :: 'r' :: s) ∧ t ≠ doneMsg

theorem plain_of {a b : Char} {t : Text} (h : a ≠ 'w' ∨ b ≠ 'r') (h' : a ≠ '.' ∨ b ≠ '.') : Plain (a :: b :: t) := by
  refine ⟨fun s e => ?_, fun e => ?_⟩
  · simp only [List.cons.injEq] at e
    rcases h with h | h
    · exact h e.1
    · exact h e.2.1
  · have e' : a :: b :: t = '.' :: '.' :: '.' :: "done.".toList := e
    simp only [List.cons.injEq] at e'
    rcases h' with h | h
    · exact h e'.1
    · exact h e'.2.1

theorem plain_head {a : Char} {t : Text} (h : a ≠ 'w') (h' : a ≠ '.') : Plain (a :: t) := by
  refine ⟨fun s e => h (List.cons.inj e).1, fun e => ?_⟩
  have e' : a :: t = '.' :: "..done.".toList := e
  exact h' (List.cons.inj e').1

theorem plain_dots {c : Char} {t : Text} (h : c ≠ 'd') : Plain ('.' :: '.' :: '.' :: c :: t) := by
  refine ⟨fun s e => ?_, fun e => ?_⟩
  · simp at e
  · have e' : '.' :: '.' :: '.' :: c :: t = '.' :: '.' :: '.' :: 'd' :: "one.".toList := e
    simp only [List.cons.injEq, true_and] at e'
    exact h e'.1

theorem report_tells {v : Bool} {what : String} (hwhat : ∃ s, what.toList = 'w' :: 'r' :: s) {pre : List Text} (hpre : ∀ t ∈ pre, Plain t)
    (hq : v = false → pre = []) (w : World) {f : Text} (r : Py (Grid F × Nat × Nat))
    (hd : ∀ g ni nj, r = .ok (g, ni, nj) → (writeOut w (some f) r).2 = .done) :
    Tells what f v r ((report v what pre w (some f) r).1, (report v what pre w (some f) r).2.2) := by
  obtain ⟨s, hs⟩ := hwhat
  have hann : ∀ h ni nj, announce what h ni nj ∉ pre := by
    intro h ni nj hm
    refine (hpre _ hm).1 (s ++ h ++ " with ni=".toList ++ natText ni ++ ", nj=".toList ++ natText nj ++ "...".toList) ?_
    unfold announce
    rw [hs]
    rfl
  have hdone : doneMsg ∉ pre := fun hm => (hpre _ hm).2 rfl
  cases r with
  | error e =>
    refine ⟨hq, ⟨fun h => absurd h hdone, fun h => ?_⟩, fun _ g ni nj h => ?_, fun e _ => hann⟩
    · cases h.2
    · cases h
  | ok x =>
    obtain ⟨g, ni, nj⟩ := x
    have hd' := hd g ni nj rfl
    cases v with
    | false =>
      have e := hq rfl
      subst e
      refine ⟨fun _ => rfl, ⟨fun h => ?_, fun h => ?_⟩, (fun h => by cases h), (fun e h => by cases h)⟩
      · cases h
      · cases h.1
    | true =>
      have e1 : (report true what pre w (some f) (.ok (g, ni, nj))).1 = pre ++ [announce what f ni nj, doneMsg] := by
        show pre ++ writingMsg what f ni nj :: (match (writeOut w (some f) (.ok (g, ni, nj))).2 with | .done => [doneMsg] | _ => []) = _
        rw [hd']
        rfl
      have e2 : (report true what pre w (some f) (.ok (g, ni, nj))).2.2 = .done := by rw [report_snd]; exact hd'
      rw [e1, e2]
      refine ⟨(fun h => by cases h), ⟨fun _ => ⟨rfl, rfl⟩, (fun _ => List.mem_append_right _ (List.mem_cons_of_mem _ (List.mem_singleton.2 rfl)))⟩,
        fun _ g' m n h => ?_, (fun e h => by cases h)⟩
      cases h
      exact ⟨pre, rfl⟩

/-- What has been printed before is still there. -/
theorem report_pre {what : String} {pre : List Text} {w : World} {f : Option Text} (r : Py (Grid F × Nat × Nat)) {t : Text} (ht : t ∈ pre) :
    t ∈ (report true what pre w f r).1 := by
  unfold report
  cases r with
  | error e => exact ht
  | ok x =>
    obtain ⟨g, ni, nj⟩ := x
    cases f with
    | none => exact ht
    | some f => exact List.mem_append_left _ ht

theorem writing_wr : ∃ s, "writing ".toList = 'w' :: 'r' :: s := ⟨"iting ".toList, by decide⟩
theorem combined_wr : ∃ s, "writing combined tile to ".toList = 'w' :: 'r' :: s := ⟨"iting combined tile to ".toList, by decide⟩

/-! ## The commands -/

/-- **C128**: `sgmkgrid`. -/
theorem C128_sgmkgrid [LawfulF64 F] [ZeroLaw F] (fmt : F → Text) (pf : Text → Option F) (pi : Text → Option Int) (geod : Geod F)
    (items : List Item) (lon1 lat1 lon2 lat2 : F) (ls lt : Int) (f : Text) (h : Readable pf pi mkgridOptions items)
    (h1 : given pf pi items "--lon1".toList = some (.float lon1)) (h2 : given pf pi items "--lat1".toList = some (.float lat1))
    (h3 : given pf pi items "--lon2".toList = some (.float lon2)) (h4 : given pf pi items "--lat2".toList = some (.float lat2))
    (h5 : given pf pi items "--lon_subscale".toList = some (.int ls)) (h6 : given pf pi items "--lat_subscale".toList = some (.int lt))
    (h7 : given pf pi items "--outfile".toList = some (.text f)) (hf : f ≠ []) (w : World) :
    ∃ lines out, sgmkgridV fmt pf pi geod (line items) w = (lines, out) ∧ out = sgmkgrid pf pi geod (line (hush items)) w ∧
      Tells "writing " f (loud items) ((mkgrid geod lon1 lat1 lon2 lat2 ls lt).map fun r => (r.1, r.2.1.toNat, r.2.2.toNat)) (lines, out.2) := by
  have hL := C92_sgmkgrid pf pi geod items lon1 lat1 lon2 lat2 ls lt f h h1 h2 h3 h4 h5 h6 h7 hf w
  have hcall : ∀ its : List Item, (∀ n : Text, n ≠ "--verbose".toList → given pf pi its n = given pf pi items n) →
      mkgridCall geod (given pf pi its) = (mkgrid geod lon1 lat1 lon2 lat2 ls lt).map fun r => (r.1, r.2.1.toNat, r.2.2.toNat) := by
    intro its hi
    have g1 := (hi _ (by decide)).trans h1
    have g2 := (hi _ (by decide)).trans h2
    have g3 := (hi _ (by decide)).trans h3
    have g4 := (hi _ (by decide)).trans h4
    have g5 := (hi _ (by decide)).trans h5
    have g6 := (hi _ (by decide)).trans h6
    unfold mkgridCall
    simp only [Ns.misses_false g1 g2 g3 g4, Bool.and_false, Bool.false_eq_true, if_false]
    simp only [Ns.float_of g1, Ns.float_of g2, Ns.float_of g3, Ns.float_of g4, Ns.int_of g5, Ns.int_of g6, Option.getD_some]
  have hw : sgmkgrid pf pi geod (line items) w = writeOut w (some f) (mkgridCall geod (given pf pi items)) := by
    unfold sgmkgrid
    rw [run_mkgrid h]
    simp only
    rw [Ns.text_of h7]
  have hw' : sgmkgrid pf pi geod (line (hush items)) w = sgmkgrid pf pi geod (line items) w := by
    rw [hw, hcall items fun _ _ => rfl]
    unfold sgmkgrid
    rw [run_mkgrid (readable_hush h)]
    simp only
    rw [Ns.text_of ((given_hush pf pi items (by decide)).trans h7), hcall _ fun n hn => given_hush pf pi items hn]
  refine ⟨(sgmkgridV fmt pf pi geod (line items) w).1, (sgmkgridV fmt pf pi geod (line items) w).2, rfl, ?_, ?_⟩
  · rw [hw']
    exact (C128_same_runs fmt pf pi (fun _ => .error .ioError) geod 0 (line items) w).1
  have hc := hcall items fun _ _ => rfl
  have hd : ∀ g ni nj, mkgridCall geod (given pf pi items) = .ok (g, ni, nj) →
      (writeOut w (some f) (mkgridCall geod (given pf pi items))).2 = .done := by
    intro g ni nj e
    rw [hc] at e
    rw [← hw]
    exact (hL.done g ni nj e).1
  rw [← hc]
  unfold sgmkgridV
  rw [run_mkgrid h]
  simp only
  rw [flag_loud (by decide +kernel) h]
  cases hl : loud items with
  | true =>
    simp only [if_true, Ns.float_of h1, Ns.float_of h2, Ns.float_of h3, Ns.float_of h4]
    rw [Ns.text_of h7]
    refine report_tells writing_wr ?_ (fun e => by cases e) w _ hd
    intro t ht
    simp only [List.mem_cons, List.not_mem_nil, or_false] at ht
    rcases ht with rfl | rfl
    · exact plain_of (a := 'c') (b := 'r') (.inl (by decide)) (.inl (by decide))
    · exact plain_head (a := '(') (by decide) (by decide)
  | false =>
    simp only [Bool.false_eq_true, if_false]
    rw [Ns.text_of h7]
    exact report_tells writing_wr (fun t ht => by cases ht) (fun _ => rfl) w _ hd

/-! ## Values on a line and on the same line without `-v` -/

theorem Ns.float_hush (pf : Text → Option F) (pi : Text → Option Int) (items : List Item) {n : String} (hn : n.toList ≠ "--verbose".toList) :
    Ns.float (given pf pi (hush items)) n = Ns.float (given pf pi items) n := by
  unfold Ns.float; rw [given_hush pf pi items hn]
theorem Ns.int_hush (pf : Text → Option F) (pi : Text → Option Int) (items : List Item) {n : String} (hn : n.toList ≠ "--verbose".toList) :
    Ns.int (given pf pi (hush items)) n = Ns.int (given pf pi items) n := by
  unfold Ns.int; rw [given_hush pf pi items hn]
theorem Ns.text_hush (pf : Text → Option F) (pi : Text → Option Int) (items : List Item) {n : String} (hn : n.toList ≠ "--verbose".toList) :
    Ns.text (given pf pi (hush items)) n = Ns.text (given pf pi items) n := by
  unfold Ns.text; rw [given_hush pf pi items hn]
theorem Ns.flag_hush (pf : Text → Option F) (pi : Text → Option Int) (items : List Item) {n : String} (hn : n.toList ≠ "--verbose".toList) :
    Ns.flag (given pf pi (hush items)) n = Ns.flag (given pf pi items) n := by
  unfold Ns.flag; rw [given_hush pf pi items hn]
theorem Ns.nat_hush (pf : Text → Option F) (pi : Text → Option Int) (items : List Item) {n : String} (hn : n.toList ≠ "--verbose".toList) :
    Ns.nat (given pf pi (hush items)) n = Ns.nat (given pf pi items) n := by
  unfold Ns.nat; rw [Ns.int_hush pf pi items hn]

theorem verbose_optional : ∀ P ∈ parsers, ∀ o ∈ P, o.required = true → o.long ≠ "--verbose".toList := by decide +kernel

/-- Parsing a line and the same line without `-v`. -/
theorem parse_hush {pf : Text → Option F} {pi : Text → Option Int} {P : Parser} (hP : P ∈ parsers) {items : List Item} (h : Readable pf pi P items)
    (hr : ∀ o ∈ P, o.required = true → given pf pi items o.long ≠ none) :
    parseArgs pf pi P (line (hush items)) = .ok (given pf pi (hush items)) :=
  run_parse hP (readable_hush h) fun o ho hq => by
    rw [given_hush pf pi items (verbose_optional P hP o ho hq)]; exact hr o ho hq

theorem regridCall_hush (pf : Text → Option F) (pi : Text → Option Int) (items : List Item) :
    regridCall (given pf pi (hush items)) = regridCall (given pf pi items) := by
  unfold regridCall
  rw [Ns.flag_hush pf pi items (n := "--strict") (by decide), Ns.text_hush pf pi items (n := "--mitgridfile") (by decide),
    Ns.text_hush pf pi items (n := "--xg_file") (by decide), Ns.text_hush pf pi items (n := "--yg_file") (by decide),
    Ns.nat_hush pf pi items (n := "--ni") (by decide), Ns.nat_hush pf pi items (n := "--nj") (by decide),
    Ns.float_hush pf pi items (n := "--lon1") (by decide), Ns.float_hush pf pi items (n := "--lat1") (by decide),
    Ns.float_hush pf pi items (n := "--lon2") (by decide), Ns.float_hush pf pi items (n := "--lat2") (by decide),
    Ns.int_hush pf pi items (n := "--lon_subscale") (by decide), Ns.int_hush pf pi items (n := "--lat_subscale") (by decide)]

theorem twoTiles_hush (pf : Text → Option F) (pi : Text → Option Int) (items : List Item) (w : World) :
    twoTiles w (given pf pi (hush items)) = twoTiles w (given pf pi items) := by
  unfold twoTiles
  rw [Ns.flag_hush pf pi items (n := "--strict") (by decide), Ns.text_hush pf pi items (n := "--tilea") (by decide),
    Ns.text_hush pf pi items (n := "--tileb") (by decide), Ns.nat_hush pf pi items (n := "--nia") (by decide),
    Ns.nat_hush pf pi items (n := "--nja") (by decide)]

/-! ## `sgregrid` -/

theorem alignSays_plain (geod : Geod F) (lon1 lat1 lon2 lat2 : F) : ∀ (fuel : Nat) (s : NArr F × NArr F) (c : Corners),
    ∀ t ∈ alignSays geod lon1 lat1 lon2 lat2 fuel s c, Plain t := by
  intro fuel
  induction fuel with
  | zero => intro s c t ht; cases ht
  | succ fuel ih =>
    intro s c t ht
    unfold alignSays at ht
    split at ht
    · cases ht
    · simp only [List.mem_cons] at ht
      rcases ht with rfl | rfl | ht
      · exact plain_of (a := 'p') (b := 'e') (.inl (by decide)) (.inl (by decide))
      · exact plain_dots (c := 's') (by decide)
      · split at ht
        · cases ht
        · rcases List.mem_cons.1 ht with rfl | ht
          · exact plain_dots (c := 'e') (by decide)
          · exact ih _ _ t ht

theorem regridSays_plain (fmt : F → Text) (geod : Geod F) (fs : Files F) (fuel : Nat) (a : RegridArgs F) :
    ∀ t ∈ regridSays fmt geod fs fuel a, Plain t := by
  intro t ht
  unfold regridSays at ht
  split at ht
  · cases ht
  split at ht
  · cases ht
  split at ht
  · cases ht
  rcases List.mem_append.1 ht with ht | ht
  · exact alignSays_plain _ _ _ _ _ _ _ _ t ht
  · split at ht
    · simp only [List.mem_cons, List.not_mem_nil, or_false] at ht
      rcases ht with rfl | rfl | rfl
      · exact plain_of (a := 'r') (b := 'e') (.inl (by decide)) (.inl (by decide))
      · exact plain_of (a := 'l') (b := 'o') (.inl (by decide)) (.inl (by decide))
      · exact plain_of (a := 'r') (b := 'e') (.inl (by decide)) (.inl (by decide))
    · cases ht

theorem regridBlock_counts (geod : Geod F) (xg yg : Mat F) (c : Corners) (ls lt : Int) (g : Grid F) (ni nj : Int)
    (h : regridBlock geod xg yg c ls lt = .ok (g, ni, nj)) :
    ni = (max c.1.1 c.2.1 - min c.1.1 c.2.1) * ls ∧ nj = (max c.1.2 c.2.2 - min c.1.2 c.2.2) * lt := by
  unfold regridBlock at h
  obtain ⟨_, -, h⟩ := bind_ok_inv h
  obtain ⟨_, -, h⟩ := bind_ok_inv h
  obtain ⟨_, -, h⟩ := bind_ok_inv h
  obtain ⟨_, -, h⟩ := bind_ok_inv h
  obtain ⟨_, -, h⟩ := bind_ok_inv h
  cases h
  exact ⟨rfl, rfl⟩

theorem intText_nat (n : Nat) : intText (n : Int) = natText n := rfl

theorem regridSays_counts [ZeroLaw F] (fmt : F → Text) (geod : Geod F) (fs : Files F) (fuel : Nat) (a : RegridArgs F) (ha : a.matrices = none)
    (d : Option (MatDict F)) (g : Grid F) (ni nj : Int) (h : regrid geod fs fuel a = some (d, .ok (g, ni, nj))) :
    resulting ni.toNat nj.toNat a.lonSub.toNat a.latSub.toNat ∈ regridSays fmt geod fs fuel a := by
  cases hs : readSource fs a with
  | error x => unfold regrid at h; rw [hs] at h; cases h
  | ok d0 =>
    obtain ⟨k, c, c', _, hl, _, _, _, _, i0, j0, p, q, ls, lt, _, _, _, _, _, els, elt, _, _, eni, enj, -⟩ :=
      regrid_success geod fs fuel a d0 hs (readSource_files_wf fs a ha d0 hs) d g ni nj h
    have hx : ∃ s, regridXY geod a.lon1 a.lat1 a.lon2 a.lat2 a.lonSub a.latSub fuel (d0.xg, d0.yg) = some (s, .ok (g, ni, nj)) := by
      unfold regrid at h
      rw [hs] at h
      simp only at h
      cases hx : regridXY geod a.lon1 a.lat1 a.lon2 a.lat2 a.lonSub a.latSub fuel (d0.xg, d0.yg) with
      | none => rw [hx] at h; cases h
      | some x =>
        obtain ⟨s, r⟩ := x
        rw [hx] at h
        simp only [Option.some.injEq, Prod.mk.injEq] at h
        exact ⟨s, by rw [h.2]⟩
    obtain ⟨s, h⟩ := hx
    unfold regridXY at h
    unfold regridSays
    rw [hs]
    simp only
    rw [hl] at h ⊢
    simp only at h ⊢
    by_cases hdeg : c.1.1 = c.2.1 ∨ c.1.2 = c.2.2
    · rw [if_pos hdeg] at h; cases h
    · rw [if_neg hdeg] at h ⊢
      refine List.mem_append_right _ ?_
      cases hal : align geod a.lon1 a.lat1 a.lon2 a.lat2 fuel (d0.xg, d0.yg) c with
      | none => rw [hal] at h; cases h
      | some x =>
        obtain ⟨s', r⟩ := x
        cases r with
        | error e => rw [hal] at h; cases h
        | ok c2 =>
          rw [hal] at h
          simp only [Option.some.injEq, Prod.mk.injEq] at h
          obtain ⟨e1, e2⟩ := regridBlock_counts _ _ _ _ _ _ _ _ _ h.2
          simp only [List.mem_cons, List.not_mem_nil, or_false]
          refine .inr (.inr ?_)
          unfold resultingMsg
          have e3 : ((c2.1.1 - c2.2.1).natAbs : Int) = max c2.1.1 c2.2.1 - min c2.1.1 c2.2.1 := by omega
          have e4 : ((c2.1.2 - c2.2.2).natAbs : Int) = max c2.1.2 c2.2.2 - min c2.1.2 c2.2.2 := by omega
          rw [e3, e4, ← e1, ← e2, eni, enj, els, elt]
          rfl

/-- **C128**: `sgregrid`; the counts announced before the work are those of the file. -/
theorem C128_sgregrid [LawfulF64 F] [ZeroLaw F] (fmt : F → Text) (pf : Text → Option F) (pi : Text → Option Int) (csv : List Byte → Py (Mat F))
    (geod : Geod F) (fuel : Nat) (items : List Item) (grid xg yg : Option Text) (ni nj : Nat) (lon1 lat1 lon2 lat2 : F) (ls lt : Int) (f : Text)
    (h : RegridSource pf pi items grid xg yg ni nj lon1 lat1 lon2 lat2 ls lt f) (w : World) (a : RegridArgs F)
    (ha : a = ⟨asked items, grid.map String.ofList, xg.map String.ofList, yg.map String.ofList, none, some ni, some nj, lon1, lat1, lon2, lat2,
      ls, lt⟩) (d : Option (MatDict F)) (r : Py (Grid F × Int × Int)) (hr : regrid geod (w.files csv) fuel a = some (d, r)) :
    ∃ lines out, sgregridV fmt pf pi csv geod fuel (line items) w = some (lines, out) ∧
      sgregrid pf pi csv geod fuel (line (hush items)) w = some out ∧
      Tells "writing " f (loud items) (r.map fun x => (x.1, x.2.1.toNat, x.2.2.toNat)) (lines, out.2) ∧
      (loud items = true → ∀ g m n, r = .ok (g, m, n) → resulting m.toNat n.toNat ls.toNat lt.toNat ∈ lines) := by
  have hP : regridParser ∈ parsers := by decide +kernel
  have hreq := regridSource_required h
  have hcall := regridSource_call h
  rw [← ha] at hcall
  obtain ⟨out, ho, hL⟩ := (C92_sgregrid pf pi csv geod fuel items grid xg yg ni nj lon1 lat1 lon2 lat2 ls lt f h w a ha).2 d r hr
  have hrun : sgregrid pf pi csv geod fuel (line items) w =
      some (writeOut w (some f) (r.map fun x => (x.1, x.2.1.toNat, x.2.2.toNat))) := by
    unfold sgregrid
    rw [run_parse hP h.line hreq]
    simp only
    rw [hcall, Ns.text_of h.outfile, hr]
    rfl
  rw [hrun] at ho
  cases ho
  have hv : sgregridV fmt pf pi csv geod fuel (line items) w = some (report (loud items) "writing "
      (if loud items then regridSays fmt geod (w.files csv) fuel a else []) w (some f) (r.map fun x => (x.1, x.2.1.toNat, x.2.2.toNat))) := by
    unfold sgregridV
    rw [run_parse hP h.line hreq]
    simp only
    rw [hcall, Ns.text_of h.outfile, hr, flag_loud hP h.line]
    rfl
  obtain ⟨R, hR⟩ : ∃ R, R = report (loud items) "writing " (if loud items then regridSays fmt geod (w.files csv) fuel a else []) w (some f)
    (r.map fun x => (x.1, x.2.1.toNat, x.2.2.toNat)) := ⟨_, rfl⟩
  rw [← hR] at hv
  refine ⟨R.1, R.2, hv, ?_, ?_, ?_⟩ <;> rw [hR]
  · rw [report_snd]
    unfold sgregrid
    rw [parse_hush hP h.line hreq]
    simp only
    rw [regridCall_hush, hcall, Ns.text_hush pf pi items (by decide), Ns.text_of h.outfile, hr]
    rfl
  · refine report_tells writing_wr ?_ (fun e => by rw [e]; rfl) w _ fun g m n e => (hL.done g m n e).1
    intro t ht
    split at ht
    · exact regridSays_plain _ _ _ _ _ t ht
    · cases ht
  · intro hl g m n e
    subst e
    have hm := regridSays_counts fmt geod (w.files csv) fuel a (by rw [ha]) d g m n hr
    have els : a.lonSub = ls := by rw [ha]
    have elt : a.latSub = lt := by rw [ha]
    rw [els, elt] at hm
    rw [hl]
    exact report_pre _ hm

/-! ## `sgaddfringe` and `sgstitch` -/

theorem edgesMsg_eq (a b : Edge) : edgesMsg a b = sides a b := by cases a <;> cases b <;> decide

theorem edgesMsg_plain (a b : Edge) : Plain (edgesMsg a b) := by
  cases a
  · exact plain_of (a := 'n') (b := 'o') (.inl (by decide)) (.inl (by decide))
  · exact plain_of (a := 's') (b := 'o') (.inl (by decide)) (.inl (by decide))
  · exact plain_of (a := 'e') (b := 'a') (.inl (by decide)) (.inl (by decide))
  · exact plain_of (a := 'w') (b := 'e') (.inr (by decide)) (.inl (by decide))

theorem tilesSay_plain (geod : Geod F) (w : World) (ns : Ns F) : ∀ t ∈ tilesSay geod w ns, Plain t := by
  intro t ht
  unfold tilesSay at ht
  split at ht
  · cases ht
  · unfold addfringeSays at ht
    simp only at ht
    split at ht
    · rw [List.mem_singleton.1 ht]; exact edgesMsg_plain _ _
    · cases ht

theorem edgesFound_of {geod : Geod F} {aXG aYG bXG bYG : Mat F} {m : Matched F} (h : matchedges geod aXG aYG bXG bYG = .ok m) :
    edgesFound geod aXG aYG bXG bYG = .ok (m.aEdge, m.bEdge) := by
  unfold matchedges at h
  unfold edgesFound
  obtain ⟨a1, e1, h⟩ := bind_ok_inv h
  obtain ⟨a2, e2, h⟩ := bind_ok_inv h
  obtain ⟨b1, e3, h⟩ := bind_ok_inv h
  obtain ⟨b2, e4, h⟩ := bind_ok_inv h
  obtain ⟨ab, e5, h⟩ := bind_ok_inv h
  obtain ⟨ba, e6, h⟩ := bind_ok_inv h
  rw [e1, Py.ok_bind, e2, Py.ok_bind, e3, Py.ok_bind, e4, Py.ok_bind, e5, Py.ok_bind, e6, Py.ok_bind]
  simp only at h ⊢
  split at h
  · cases h
  rename_i hlt
  rw [if_neg hlt]
  cases e7 : detect ab ((a1 +ₚ a2 +ₚ b1 +ₚ b2) /ₚ PyFloat.four *ₚ PyFloat.tol) with
  | none => rw [e7] at h; cases h
  | some ae =>
    rw [e7] at h
    cases e8 : detect ba ((a1 +ₚ a2 +ₚ b1 +ₚ b2) /ₚ PyFloat.four *ₚ PyFloat.tol) with
    | none => rw [e8] at h; cases h
    | some be =>
      rw [e8] at h
      simp only at h ⊢
      split at h
      · cases h
      · rename_i hc
        rw [if_neg hc]
        obtain ⟨x, -, h⟩ := bind_ok_inv h
        cases h
        rfl

theorem addfringeSays_of {geod : Geod F} {strict : Bool} {fa fb : List Byte} {nia nja nib njb : Nat} {ae be : Edge} {g : Grid F}
    (h : addfringe geod strict fa nia nja fb nib njb = .ok (ae, be, g)) :
    addfringeSays (F := F) geod strict fa nia nja fb nib njb = [edgesMsg ae be] := by
  unfold addfringe at h
  unfold addfringeSays
  obtain ⟨a, e1, h⟩ := bind_ok_inv h
  obtain ⟨b, e2, h⟩ := bind_ok_inv h
  obtain ⟨aXG, e3, h⟩ := bind_ok_inv h
  obtain ⟨aYG, e4, h⟩ := bind_ok_inv h
  obtain ⟨bXG, e5, h⟩ := bind_ok_inv h
  obtain ⟨bYG, e6, h⟩ := bind_ok_inv h
  obtain ⟨m, e7, h⟩ := bind_ok_inv h
  obtain ⟨_, -, h⟩ := bind_ok_inv h
  obtain ⟨_, -, h⟩ := bind_ok_inv h
  cases h
  rw [e1, Py.ok_bind, e2, Py.ok_bind, e3, Py.ok_bind, e4, Py.ok_bind, e5, Py.ok_bind, e6, Py.ok_bind, edgesFound_of e7]

theorem tilesSay_of {pf : Text → Option F} {pi : Text → Option Int} {geod : Geod F} {items : List Item} {a : Text} {nia nja : Nat} {b : Text}
    {nib njb : Nat} {f : Text} (h : TilesLine pf pi items a nia nja b nib njb f) {w : World} {fa fb : List Byte} (ha : w a = some fa)
    (hb : w b = some fb) {ae be : Edge} {g : Grid F} (hg : addfringe geod (asked items) fa nia nja fb nib njb = .ok (ae, be, g)) :
    sides ae be ∈ tilesSay geod w (given pf pi items) := by
  have ht : twoTiles w (given pf pi items) = .ok (fa, fb) := by
    have := twoTiles_bind h w fa fb ha hb (fun x => (.ok x : Py _)) fun e he => by
      rw [addfringe_first he] at hg; cases hg
    rw [← this]
    cases twoTiles w (given pf pi items) <;> rfl
  unfold tilesSay
  rw [ht]
  simp only
  rw [Ns.nat_of h.nia, Ns.nat_of h.nja, Ns.nat_of h.nib, Ns.nat_of h.njb, flag_strict (by decide +kernel) h.line, addfringeSays_of hg, ← edgesMsg_eq]
  exact List.mem_singleton.2 rfl

/-- **C128**: `sgaddfringe`; the sides named are those returned by `addfringe`. -/
theorem C128_sgaddfringe [LawfulF64 F] [ZeroLaw F] (pf : Text → Option F) (pi : Text → Option Int) (geod : Geod F) (items : List Item)
    (a : Text) (nia nja : Nat) (b : Text) (nib njb : Nat) (f : Text) (h : TilesLine pf pi items a nia nja b nib njb f) (w : World)
    (fa fb : List Byte) (ha : w a = some fa) (hb : w b = some fb) :
    ∃ lines out, sgaddfringeV pf pi geod (line items) w = (lines, out) ∧ out = sgaddfringe pf pi geod (line (hush items)) w ∧
      Tells (F := F) "writing " f (loud items) ((addfringe geod (asked items) fa nia nja fb nib njb).map fun r => (r.2.2, nia, nja)) (lines, out.2) ∧
      (loud items = true → ∀ ae be (g : Grid F), addfringe geod (asked items) fa nia nja fb nib njb = .ok (ae, be, g) → sides ae be ∈ lines) := by
  have hP : twoTilesParser ∈ parsers := by decide +kernel
  have hL := C92_sgaddfringe pf pi geod items a nia nja b nib njb f h w fa fb ha hb
  have hcall : (do
      let fs ← twoTiles w (given pf pi items)
      let r ← (addfringe geod (asked items) fs.1 nia nja fs.2 nib njb : Py (Edge × Edge × Grid F))
      return (r.2.2, nia, nja)) = (addfringe geod (asked items) fa nia nja fb nib njb).map fun r => (r.2.2, nia, nja) := by
    rw [twoTiles_bind h w fa fb ha hb _ fun e he => by rw [addfringe_first he]; rfl]
    cases (addfringe geod (asked items) fa nia nja fb nib njb : Py (Edge × Edge × Grid F)) <;> rfl
  have hrun : sgaddfringe pf pi geod (line items) w =
      writeOut w (some f) ((addfringe geod (asked items) fa nia nja fb nib njb : Py (Edge × Edge × Grid F)).map fun r => (r.2.2, nia, nja)) := by
    unfold sgaddfringe
    rw [run_tiles h]
    simp only
    rw [Ns.nat_of h.nia, Ns.nat_of h.nja, Ns.nat_of h.nib, Ns.nat_of h.njb, Ns.text_of h.outfile, flag_strict hP h.line, hcall]
  have hv : sgaddfringeV pf pi geod (line items) w = report (loud items) "writing "
      (if loud items then
        ("computing boundary grid information for ".toList ++ a ++ ",".toList) :: ("using data from ".toList ++ b ++ "...".toList) ::
          tilesSay geod w (given pf pi items) else []) w (some f)
      ((addfringe geod (asked items) fa nia nja fb nib njb : Py (Edge × Edge × Grid F)).map fun r => (r.2.2, nia, nja)) := by
    unfold sgaddfringeV
    rw [run_tiles h]
    simp only
    rw [Ns.nat_of h.nia, Ns.nat_of h.nja, Ns.nat_of h.nib, Ns.nat_of h.njb, Ns.text_of h.outfile, flag_strict hP h.line, flag_loud hP h.line, hcall,
      Ns.text_of h.a, Ns.text_of h.b, Option.getD_some, Option.getD_some]
  refine ⟨(sgaddfringeV pf pi geod (line items) w).1, (sgaddfringeV pf pi geod (line items) w).2, rfl, ?_, ?_, ?_⟩
  · rw [hv, report_snd]
    unfold sgaddfringe
    rw [parse_hush hP h.line (twoTiles_required h)]
    simp only
    rw [twoTiles_hush, Ns.nat_hush pf pi items (by decide), Ns.nat_hush pf pi items (by decide), Ns.nat_hush pf pi items (by decide),
      Ns.nat_hush pf pi items (by decide), Ns.text_hush pf pi items (by decide), Ns.flag_hush pf pi items (by decide),
      Ns.nat_of h.nia, Ns.nat_of h.nja, Ns.nat_of h.nib, Ns.nat_of h.njb, Ns.text_of h.outfile, flag_strict hP h.line, hcall]
  · rw [hv]
    refine report_tells writing_wr ?_ (fun e => by rw [e]; rfl) w _ fun g m n e => by rw [← hrun]; exact (hL.done g m n e).1
    intro t ht
    split at ht
    · rcases List.mem_cons.1 ht with rfl | ht
      · exact plain_of (a := 'c') (b := 'o') (.inl (by decide)) (.inl (by decide))
      rcases List.mem_cons.1 ht with rfl | ht
      · exact plain_of (a := 'u') (b := 's') (.inl (by decide)) (.inl (by decide))
      · exact tilesSay_plain _ _ _ t ht
    · cases ht
  · intro hl ae be g hg
    rw [hv, hl]
    exact report_pre _ (List.mem_cons_of_mem _ (List.mem_cons_of_mem _ (tilesSay_of h ha hb hg)))

/-- **C128**: `sgstitch`; the sides named are those returned by `addfringe`. -/
theorem C128_sgstitch [LawfulF64 F] [ZeroLaw F] (pf : Text → Option F) (pi : Text → Option Int) (geod : Geod F) (items : List Item)
    (a : Text) (nia nja : Nat) (b : Text) (nib njb : Nat) (f : Text) (h : TilesLine pf pi items a nia nja b nib njb f) (w : World)
    (fa fb : List Byte) (ha : w a = some fa) (hb : w b = some fb) :
    ∃ lines out, sgstitchV pf pi geod (line items) w = (lines, out) ∧ out = sgstitch pf pi geod (line (hush items)) w ∧
      Tells (F := F) "writing combined tile to " f (loud items) (stitch geod (asked items) fa nia nja fb nib njb) (lines, out.2) ∧
      (loud items = true → ∀ ae be (g : Grid F), addfringe geod (asked items) fa nia nja fb nib njb = .ok (ae, be, g) → sides ae be ∈ lines) := by
  have hP : twoTilesParser ∈ parsers := by decide +kernel
  have hL := C92_sgstitch pf pi geod items a nia nja b nib njb f h w fa fb ha hb
  have hcall : (do
      let fs ← twoTiles w (given pf pi items)
      stitch geod (asked items) fs.1 nia nja fs.2 nib njb) = (stitch geod (asked items) fa nia nja fb nib njb : Py (Grid F × Nat × Nat)) :=
    twoTiles_bind h w fa fb ha hb _ fun e he => by
      show (stitch geod (asked items) fa nia nja fb nib njb : Py (Grid F × Nat × Nat)) = _
      unfold stitch
      rw [addfringe_first he]
      rfl
  have hrun : sgstitch pf pi geod (line items) w =
      writeOut w (some f) (stitch geod (asked items) fa nia nja fb nib njb : Py (Grid F × Nat × Nat)) := by
    unfold sgstitch
    rw [run_tiles h]
    simp only
    rw [Ns.nat_of h.nia, Ns.nat_of h.nja, Ns.nat_of h.nib, Ns.nat_of h.njb, Ns.text_of h.outfile, flag_strict hP h.line, hcall]
  have hv : sgstitchV pf pi geod (line items) w = report (loud items) "writing combined tile to "
      (if loud items then
        ("joining ".toList ++ a ++ " and ".toList ++ b ++ " along a common edge...".toList) :: tilesSay geod w (given pf pi items) else [])
      w (some f) (stitch geod (asked items) fa nia nja fb nib njb) := by
    unfold sgstitchV
    rw [run_tiles h]
    simp only
    rw [Ns.nat_of h.nia, Ns.nat_of h.nja, Ns.nat_of h.nib, Ns.nat_of h.njb, Ns.text_of h.outfile, flag_strict hP h.line, flag_loud hP h.line, hcall,
      Ns.text_of h.a, Ns.text_of h.b, Option.getD_some, Option.getD_some]
  refine ⟨(sgstitchV pf pi geod (line items) w).1, (sgstitchV pf pi geod (line items) w).2, rfl, ?_, ?_, ?_⟩
  · rw [hv, report_snd]
    unfold sgstitch
    rw [parse_hush hP h.line (twoTiles_required h)]
    simp only
    rw [twoTiles_hush, Ns.nat_hush pf pi items (by decide), Ns.nat_hush pf pi items (by decide), Ns.nat_hush pf pi items (by decide),
      Ns.nat_hush pf pi items (by decide), Ns.text_hush pf pi items (by decide), Ns.flag_hush pf pi items (by decide),
      Ns.nat_of h.nia, Ns.nat_of h.nja, Ns.nat_of h.nib, Ns.nat_of h.njb, Ns.text_of h.outfile, flag_strict hP h.line, hcall]
  · rw [hv]
    refine report_tells combined_wr ?_ (fun e => by rw [e]; rfl) w _ fun g m n e => by rw [← hrun]; exact (hL.done g m n e).1
    intro t ht
    split at ht
    · rcases List.mem_cons.1 ht with rfl | ht
      · exact plain_of (a := 'j') (b := 'o') (.inl (by decide)) (.inl (by decide))
      · exact tilesSay_plain _ _ _ t ht
    · cases ht
  · intro hl ae be g hg
    rw [hv, hl]
    exact report_pre _ (List.mem_cons_of_mem _ (tilesSay_of h ha hb hg))

/-! ## Examples -/

namespace ExCli

/-- C128: `sgmkgrid ... -v ... --outfile a` -/
example (w : World) : ∃ pre out, sgmkgridV (fun _ => "10.0000".toList) pf pi Toy.geod (line A) w =
    (pre ++ ["writing a with ni=2, nj=1...".toList, "...done.".toList], out) ∧ out = sgmkgrid pf pi Toy.geod (line (A.take 2 ++ A.drop 3)) w := by
  obtain ⟨g, hg, -⟩ := C27_mkgrid_sizes Toy.geod 10 20 50 10 2 1 (by decide) (by decide)
  obtain ⟨lines, out, e, ho, hT⟩ := C128_sgmkgrid (fun _ => "10.0000".toList) pf pi Toy.geod A 10 20 50 10 2 1 "a".toList A_readable
    A_line.lon1 A_line.lat1 A_line.lon2 A_line.lat2 A_line.lonSub A_line.latSub A_line.outfile A_line.named w
  obtain ⟨pre, hp⟩ := hT.counts (by decide +kernel) g 2 1 (by
    have : mkgrid Toy.geod 10 20 50 10 2 1 = .ok (g, 2, 1) := hg
    rw [this]; rfl)
  exact ⟨pre, out, by rw [e, ← show _ = lines from hp.symm]; rfl, ho⟩

/-- The whole output of a run. -/
example : (sgmkgridV (fun _ => "10.0000".toList) pf pi Toy.geod (line A) (fun _ => none)).1 =
    ["creating simple 2 x 1 rectangular grid between the extents", "(10.0000,10.0000) and (10.0000,10.0000)",
     "writing a with ni=2, nj=1...", "...done."].map String.toList := by decide +kernel

/-- `sgstitch ... -v`, after the tiles of C90 have been made: nothing changes for the files -/
theorem SV_line : TilesLine pf pi (S ++ [.flag verboseOpt]) "a".toList 2 1 "b".toList 3 1 "c".toList := by
  refine ⟨⟨?_, by decide +kernel⟩, by decide +kernel, by decide +kernel, by decide +kernel, by decide +kernel, by decide +kernel,
    by decide +kernel, by decide +kernel, by decide⟩
  intro it h
  rcases List.mem_append.1 h with h | h
  · exact S_line.line.proper it h
  · rw [List.mem_singleton.1 h]; exact ⟨by decide +kernel, by decide⟩
example (w : World) : ∃ w1 w2 w3 lines, sgmkgrid pf pi Toy.geod (line A) w = (w1, .done) ∧ sgmkgrid pf pi Toy.geod (line B) w1 = (w2, .done) ∧
    sgstitchV pf pi Toy.geod (line (S ++ [.flag verboseOpt])) w2 = (lines, w3, .done) ∧ "...done.".toList ∈ lines := by
  obtain ⟨w1, w2, w3, -, -, -, -, h1, h2, h3, -⟩ := C90_stitch_tiles pf pi Toy.geod 10 50 80 20 10 2 3 1 (by decide) (by decide) (by decide)
    ExPipe.sideBySide A B S _ _ _ (by decide) A_line B_line S_line w
  have ha : ∃ fa, w2 "a".toList = some fa := by
    rw [mkgrid_line Toy.geod A_line (by decide) (by decide)] at h1
    rw [mkgrid_line Toy.geod B_line (by decide) (by decide)] at h2
    cases h1
    cases h2
    exact ⟨_, (if_neg (by decide)).trans (if_pos rfl)⟩
  have hb : ∃ fb, w2 "b".toList = some fb := by
    rw [mkgrid_line Toy.geod B_line (by decide) (by decide)] at h2
    cases h2
    exact ⟨_, if_pos rfl⟩
  obtain ⟨fa, ha⟩ := ha
  obtain ⟨fb, hb⟩ := hb
  obtain ⟨lines, out, e, ho, hT, -⟩ := C128_sgstitch pf pi Toy.geod (S ++ [.flag verboseOpt]) _ 2 1 _ 3 1 _ SV_line w2 fa fb ha hb
  have hh : hush (S ++ [.flag verboseOpt]) = S := rfl
  rw [hh, h3] at ho
  subst ho
  exact ⟨w1, w2, w3, lines, h1, h2, e, hT.done.2 ⟨by decide +kernel, rfl⟩⟩

/-- `sgregrid ... -v` on any files, if the call of `regrid` returns -/
example (w : World) (d : Option (MatDict Toy)) (g : Grid Toy) (m n : Int)
    (h : regrid Toy.geod (w.files fun _ => .error .ioError) 4
      ⟨false, some "a", none, none, none, some 2, some 1, 10, 20, 50, 10, 1, 1⟩ = some (d, .ok (g, m, n))) :
    ∃ lines out, sgregridV (fun _ => "10.0000".toList) pf pi (fun _ => .error .ioError) Toy.geod 4 (line (R ++ [.short verboseOpt 'v'])) w =
      some (lines, out) ∧ resulting m.toNat n.toNat 1 1 ∈ lines := by
  have hl : RegridSource pf pi (R ++ [.short verboseOpt 'v']) (some "a".toList) none none 2 1 10 20 50 10 1 1 "b".toList := by
    refine ⟨⟨?_, by decide +kernel⟩, by decide +kernel, by decide +kernel, by decide +kernel, by decide +kernel, by decide +kernel,
      by decide +kernel, by decide +kernel, by decide +kernel, by decide +kernel, by decide +kernel, by decide +kernel, by decide +kernel, by decide⟩
    intro it h
    rcases List.mem_append.1 h with h | h
    · exact R_line.line.proper it h
    · rw [List.mem_singleton.1 h]; exact ⟨by decide +kernel, by decide, by decide⟩
  obtain ⟨lines, out, e, -, -, hr⟩ := C128_sgregrid (fun _ => "10.0000".toList) pf pi (fun _ => .error .ioError) Toy.geod 4 _ _ _ _ 2 1 10 20 50 10 1 1
    _ hl w _ rfl d _ h
  exact ⟨lines, out, e, hr (by decide +kernel) g m n rfl⟩

end ExCli

end SG.Cli
