import Verif.Model.Commands
import Verif.Lemmas.CommandArgs
import Verif.Props.CommandLine
import Verif.Props.Pipeline
import Verif.Props.GetObcs
/-! # C87-C91: the commands from arguments to files -/
set_option linter.unusedSectionVars false

namespace SG.Cli
variable {F : Type} [PyFloat F] [F64 F]

/-! ## Specification -/

namespace Spec

/-- The options of a command line are proper and readable (but perhaps not complete). -/
structure Readable (pf : Text → Option F) (pi : Text → Option Int) (P : Parser) (items : List Item) : Prop where
  proper : ∀ it ∈ items, it.Proper P
  values : ∀ it ∈ items, it.value pf pi ≠ none

/-- `sgmkgrid` with all its options. -/
structure MkgridLine (pf : Text → Option F) (pi : Text → Option Int) (items : List Item) (lon1 lat1 lon2 lat2 : F) (m n : Nat) (f : Text) :
    Prop where
  line : Readable pf pi mkgridOptions items
  lon1 : given pf pi items "--lon1".toList = some (.float lon1)
  lat1 : given pf pi items "--lat1".toList = some (.float lat1)
  lon2 : given pf pi items "--lon2".toList = some (.float lon2)
  lat2 : given pf pi items "--lat2".toList = some (.float lat2)
  lonSub : given pf pi items "--lon_subscale".toList = some (.int m)
  latSub : given pf pi items "--lat_subscale".toList = some (.int n)
  outfile : given pf pi items "--outfile".toList = some (.text f)
  named : f ≠ []

/-- `sgregrid` on a grid file, with all its options. -/
structure RegridLine (pf : Text → Option F) (pi : Text → Option Int) (items : List Item) (grid : Text) (ni nj : Nat) (lon1 lat1 lon2 lat2 : F)
    (lonSub latSub : Int) (f : Text) : Prop where
  line : Readable pf pi regridOptions items
  grid : given pf pi items "--mitgridfile".toList = some (.text grid)
  xg : given pf pi items "--xg_file".toList = none
  yg : given pf pi items "--yg_file".toList = none
  ni : given pf pi items "--ni".toList = some (.int ni)
  nj : given pf pi items "--nj".toList = some (.int nj)
  lon1 : given pf pi items "--lon1".toList = some (.float lon1)
  lat1 : given pf pi items "--lat1".toList = some (.float lat1)
  lon2 : given pf pi items "--lon2".toList = some (.float lon2)
  lat2 : given pf pi items "--lat2".toList = some (.float lat2)
  lonSub : given pf pi items "--lon_subscale".toList = some (.int lonSub)
  latSub : given pf pi items "--lat_subscale".toList = some (.int latSub)
  outfile : given pf pi items "--outfile".toList = some (.text f)
  named : f ≠ []

/-- `sgaddfringe` or `sgstitch` with all its options. -/
structure TilesLine (pf : Text → Option F) (pi : Text → Option Int) (items : List Item) (a : Text) (nia nja : Nat) (b : Text) (nib njb : Nat)
    (f : Text) : Prop where
  line : Readable pf pi tilesOptions items
  a : given pf pi items "--tilea".toList = some (.text a)
  nia : given pf pi items "--nia".toList = some (.int nia)
  nja : given pf pi items "--nja".toList = some (.int nja)
  b : given pf pi items "--tileb".toList = some (.text b)
  nib : given pf pi items "--nib".toList = some (.int nib)
  njb : given pf pi items "--njb".toList = some (.int njb)
  outfile : given pf pi items "--outfile".toList = some (.text f)
  named : f ≠ []

/-- Some word of the line is the option or an abbreviation of it, with or without `=value`. -/
def Mentioned (args : List Text) (name : Text) : Prop :=
  ∃ p, ['-', '-'] <+: p ∧ p <+: name ∧ (p ∈ args ∨ ∃ v, p ++ '=' :: v ∈ args)

/-- A name that occurs on the command line, by itself or after an equals sign. -/
def Named (args : List Text) (f : Text) : Prop := f ∈ args ∨ ∃ p, p ++ '=' :: f ∈ args

end Spec
open Spec

/-! ## Running a command -/

theorem run_parse {pf : Text → Option F} {pi : Text → Option Int} {P : Parser} (hP : P ∈ parsers) {items : List Item} (h : Readable pf pi P items)
    (hr : ∀ o ∈ P, o.required = true → given pf pi items o.long ≠ none) : parseArgs pf pi P (line items) = .ok (given pf pi items) := by
  refine (parse_items (good_parsers hP) items h.proper).1 ⟨h.values, fun o ho hq => ?_⟩
  have := hr o ho hq
  rw [Ne, given_none_iff h.values] at this
  simpa only [Classical.not_forall, Classical.not_not, ne_eq, exists_prop] using this

/-- A flag that is on the line has the value `True`. -/
theorem flag_given {pf : Text → Option F} {pi : Text → Option Int} {P : Parser} (hP : P ∈ parsers) {items : List Item}
    (h : Readable pf pi P items) {n : String} (hk : ∀ P ∈ parsers, ∀ o ∈ P, o.long = n.toList → o.kind = .flag)
    (hg : given pf pi items n.toList ≠ none) : Ns.flag (given pf pi items) n = true := by
  unfold Ns.flag
  cases hf : items.reverse.find? fun it => it.opt.long = n.toList with
  | none => exact absurd (by unfold given; rw [hf]; rfl) hg
  | some it =>
    have hm : it ∈ items := List.mem_reverse.1 (List.mem_of_find?_eq_some hf)
    have hl : it.opt.long = n.toList := by
      have := List.find?_some hf
      exact of_decide_eq_true this
    have hv : it.value pf pi = some .true_ := by
      have hp := h.proper it hm
      cases it with
      | pair o v => have := hk P hP o hp.1 hl; rcases hp.2.1 with e | e | e <;> rw [this] at e <;> cases e
      | glued o v => have := hk P hP o hp.1 hl; rcases hp.2 with e | e | e <;> rw [this] at e <;> cases e
      | flag o => rfl
      | short o c => rfl
    have : given pf pi items n.toList = some .true_ := by unfold given; rw [hf]; exact hv
    rw [this]

theorem verbose_kind : ∀ P ∈ parsers, ∀ o ∈ P, o.long = "--verbose".toList → o.kind = .flag := by decide +kernel

theorem mkgrid_required : ∀ o ∈ mkgridParser, o.required = false := by decide +kernel

theorem run_mkgrid {pf : Text → Option F} {pi : Text → Option Int} {items : List Item} (h : Readable pf pi mkgridOptions items) :
    parseArgs pf pi mkgridParser (line items) = .ok (given pf pi items) :=
  run_parse (P := mkgridParser) (by decide +kernel) h fun o ho hq => by rw [mkgrid_required o ho] at hq; cases hq

theorem Ns.nat_of {ns : Ns F} {n : String} {k : Nat} (h : ns n.toList = some (.int k)) : ns.nat n = k := by
  unfold Ns.nat Ns.int; rw [h]; rfl
theorem Ns.int_of {ns : Ns F} {n : String} {k : Int} (h : ns n.toList = some (.int k)) : ns.int n = some k := by
  unfold Ns.int; rw [h]
theorem Ns.text_of {ns : Ns F} {n : String} {t : Text} (h : ns n.toList = some (.text t)) : ns.text n = some t := by
  unfold Ns.text; rw [h]
theorem Ns.float_of {ns : Ns F} {n : String} {x : F} (h : ns n.toList = some (.float x)) : ns.float n = some x := by
  unfold Ns.float; rw [h]
theorem Ns.text_none {ns : Ns F} {n : String} (h : ns n.toList = none) : ns.text n = none := by
  unfold Ns.text; rw [h]
theorem Ns.int_none {ns : Ns F} {n : String} (h : ns n.toList = none) : ns.int n = none := by
  unfold Ns.int; rw [h]

theorem Ns.misses_false {ns : Ns F} {a b c d : F} (h1 : ns "--lon1".toList = some (.float a)) (h2 : ns "--lat1".toList = some (.float b))
    (h3 : ns "--lon2".toList = some (.float c)) (h4 : ns "--lat2".toList = some (.float d)) : ns.misses = false := by
  unfold Ns.misses
  simp [Ns.float_of h1, Ns.float_of h2, Ns.float_of h3, Ns.float_of h4]

theorem writeOut_ok {g : Grid F} {ni nj : Nat} {w : World} {f : Text} (hf : f ≠ []) {bytes : List Byte}
    (h : writeMitgrid ((w f).getD []) g ni nj = (bytes, .ok ())) : writeOut w (some f) (.ok (g, ni, nj)) = (w.put f bytes, .done) := by
  cases f with
  | nil => exact absurd rfl hf
  | cons c f =>
    show (World.put w (c :: f) (writeMitgrid ((w (c :: f)).getD []) g ni nj).1, _) = _
    rw [h]

theorem writeMitgrid_old (old old' : List Byte) (g : Grid F) (ni nj : Nat) : writeMitgrid old g ni nj = writeMitgrid old' g ni nj := rfl

/-- `sgmkgrid` with all its options. -/
theorem mkgrid_line [LawfulF64 F] [ZeroLaw F] {pf : Text → Option F} {pi : Text → Option Int} (geod : Geod F) {items : List Item}
    {lon1 lat1 lon2 lat2 : F} {m n : Nat} {f : Text} (h : MkgridLine pf pi items lon1 lat1 lon2 lat2 m n f) (hm : 1 ≤ m) (hn : 1 ≤ n)
    (w : World) : sgmkgrid pf pi geod (line items) w = (w.put f (mkgridMain geod lon1 lat1 lon2 lat2 m n []).1, .done) := by
  obtain ⟨g, hg, hc⟩ := C27_mkgrid_sizes geod lon1 lat1 lon2 lat2 m n hm hn
  obtain ⟨bytes, g', hw, -, -⟩ := C01_round_trip ZeroLaw.isZero_zero [] g m n false hc
  have hmain : (mkgridMain geod lon1 lat1 lon2 lat2 m n []).1 = bytes := by
    unfold mkgridMain; rw [hg]; exact congrArg Prod.fst hw
  unfold sgmkgrid mkgridCall
  rw [run_mkgrid h.line]
  simp only [Ns.misses_false h.lon1 h.lat1 h.lon2 h.lat2, Bool.and_false, Bool.false_eq_true, if_false]
  simp only [Ns.float_of h.lon1, Ns.float_of h.lat1, Ns.float_of h.lon2, Ns.float_of h.lat2, Ns.int_of h.lonSub, Ns.int_of h.latSub,
    Ns.text_of h.outfile, Option.getD_some]
  rw [hg, hmain]
  exact writeOut_ok h.named hw

/-! ## C87 -/

/-- **C87** (violation): no option of `sgmkgrid` is required.  Without a subscale or an output file the process ends with `TypeError` and all files are
as before. -/
theorem C87_missing_subscale (pf : Text → Option F) (pi : Text → Option Int) (geod : Geod F) (items : List Item)
    (h : Readable pf pi mkgridOptions items) (w : World)
    (hs : given pf pi items "--lon_subscale".toList = none ∨ given pf pi items "--lat_subscale".toList = none) :
    sgmkgrid pf pi geod (line items) w = (w, .raised .typeError) := by
  unfold sgmkgrid
  rw [run_mkgrid h]
  have : mkgridCall geod (given pf pi items) = .error .typeError := by
    unfold mkgridCall
    split
    · rfl
    rcases hs with hs | hs
    · rw [Ns.int_none hs]
    · rw [Ns.int_none hs]
      cases Ns.int (given pf pi items) "--lon_subscale" <;> rfl
  simp only
  rw [this]
  rfl

theorem C87_missing_outfile [ZeroLaw F] (pf : Text → Option F) (pi : Text → Option Int) (geod : Geod F) (items : List Item)
    (h : Readable pf pi mkgridOptions items) (w : World) (hs : given pf pi items "--outfile".toList = none) :
    ∃ e, sgmkgrid pf pi geod (line items) w = (w, .raised e) := by
  unfold sgmkgrid
  rw [run_mkgrid h]
  simp only
  rw [Ns.text_none hs]
  rcases mkgridCall geod (given pf pi items) with e | ⟨g, ni, nj⟩
  · exact ⟨e, rfl⟩
  · exact ⟨_, rfl⟩

/-- **C87** (violation): without one or more of the coordinates, and without `-v`, the grid is made all the same and written: `XG` or `YG` is NaN
at the two corner points that should have the missing coordinate. -/
theorem C87_missing_coordinate [LawfulF64 F] [ZeroLaw F] (pf : Text → Option F) (pi : Text → Option Int) (geod : Geod F) (items : List Item)
    (h : Readable pf pi mkgridOptions items) (w : World) (hv : given pf pi items "--verbose".toList = none)
    (m n : Nat) (hm : 1 ≤ m) (hn : 1 ≤ n) (f : Text) (hf : f ≠ [])
    (h1 : given pf pi items "--lon_subscale".toList = some (.int m)) (h2 : given pf pi items "--lat_subscale".toList = some (.int n))
    (h3 : given pf pi items "--outfile".toList = some (.text f)) :
    ∃ (bytes : List Byte) (g : Grid F) (X Y : Mat F), sgmkgrid pf pi geod (line items) w = (w.put f bytes, .done) ∧
      readMitgrid bytes m n true = .ok g ∧ g .XG = .arr X ∧ g .YG = .arr Y ∧
      (given pf pi items "--lon1".toList = none → X.get 0 0 = PyFloat.nan ∧ X.get 0 n = PyFloat.nan) ∧
      (given pf pi items "--lon2".toList = none → X.get m 0 = PyFloat.nan ∧ X.get m n = PyFloat.nan) ∧
      (given pf pi items "--lat1".toList = none → Y.get 0 n = PyFloat.nan ∧ Y.get m n = PyFloat.nan) ∧
      (given pf pi items "--lat2".toList = none → Y.get 0 0 = PyFloat.nan ∧ Y.get m 0 = PyFloat.nan) := by
  let c (s : String) : F := (Ns.float (given pf pi items) s).getD PyFloat.nan
  obtain ⟨g, hg, hc⟩ := C27_mkgrid_sizes geod (c "--lon1") (c "--lat1") (c "--lon2") (c "--lat2") m n hm hn
  obtain ⟨bytes, g', hw, -, -⟩ := C01_round_trip ZeroLaw.isZero_zero [] g m n false hc
  obtain ⟨g2, g3, X, Y, X', Y', k1, k2, k3, k4, k5, k6, -, -, r1, r2, r3, r4, kc⟩ :=
    mkgrid_file geod (c "--lon1") (c "--lat1") (c "--lon2") (c "--lat2") m n hm hn [] true
  have hmain : (mkgridMain geod (c "--lon1") (c "--lat1") (c "--lon2") (c "--lat2") m n []).1 = bytes := by
    unfold mkgridMain; rw [hg]; exact congrArg Prod.fst hw
  rw [hmain] at k2
  have hnan : ∀ s : String, given pf pi items s.toList = none → c s = PyFloat.nan := by
    intro s hs
    show (Ns.float (given pf pi items) s).getD PyFloat.nan = _
    unfold Ns.float
    rw [hs]
    rfl
  have q00 := kc (false, false)
  have q01 := kc (false, true)
  have q10 := kc (true, false)
  have q11 := kc (true, true)
  simp only [SG.Spec.cornerPt, SG.Spec.boxCorner, r1, r2, r3, r4, Nat.add_sub_cancel, Prod.mk.injEq, if_true, if_false, Bool.false_eq_true,
    reduceIte] at q00 q01 q10 q11
  refine ⟨bytes, g3, X', Y', ?_, k2, k5, k6, fun e => ?_, fun e => ?_, fun e => ?_, fun e => ?_⟩
  · unfold sgmkgrid mkgridCall
    rw [run_mkgrid h]
    have hq : Ns.flag (given pf pi items) "--verbose" = false := by unfold Ns.flag; rw [hv]
    simp only [hq, Bool.false_and, Bool.false_eq_true, if_false]
    simp only [Ns.int_of h1, Ns.int_of h2, Ns.text_of h3]
    rw [show mkgrid geod ((Ns.float (given pf pi items) "--lon1").getD PyFloat.nan) ((Ns.float (given pf pi items) "--lat1").getD PyFloat.nan)
      ((Ns.float (given pf pi items) "--lon2").getD PyFloat.nan) ((Ns.float (given pf pi items) "--lat2").getD PyFloat.nan) m n = _ from hg]
    exact writeOut_ok hf hw
  · rw [← hnan _ e]; exact ⟨q00.1, q01.1⟩
  · rw [← hnan _ e]; exact ⟨q10.1, q11.1⟩
  · rw [← hnan _ e]; exact ⟨q01.2, q11.2⟩
  · rw [← hnan _ e]; exact ⟨q00.2, q10.2⟩

/-- **C87**: with `-v` a missing coordinate makes the process end with `TypeError` (it is the message that raises), and all files are as before. -/
theorem C87_missing_coordinate_verbose (pf : Text → Option F) (pi : Text → Option Int) (geod : Geod F) (items : List Item)
    (h : Readable pf pi mkgridOptions items) (w : World) (hv : given pf pi items "--verbose".toList ≠ none)
    (hc : ∃ n, n ∈ ["--lon1", "--lat1", "--lon2", "--lat2"] ∧ given pf pi items n.toList = none) :
    sgmkgrid pf pi geod (line items) w = (w, .raised .typeError) := by
  have hq : Ns.flag (given pf pi items) "--verbose" = true := flag_given (by decide +kernel) h verbose_kind hv
  have hm : Ns.misses (given pf pi items) = true := by
    obtain ⟨n, hn, e⟩ := hc
    unfold Ns.misses
    rw [List.any_eq_true]
    refine ⟨n, hn, ?_⟩
    unfold Ns.float
    rw [e]
    rfl
  unfold sgmkgrid mkgridCall
  rw [run_mkgrid h]
  simp only [hq, hm, Bool.and_true, if_true]
  rfl

/-! ## C88 -/

def resultsdirOpt : Opt := { long := "--resultsdir".toList, kind := .text, required := true }

/-- **C88** (violation): without `--resultsdir` the process exits with status 2 and nothing is written, so the default directory of the help text is
never used. -/
theorem C88_resultsdir_required {W : Type} (pf : Text → Option F) (pi : Text → Option Int) (geod : Geod F) (fs : Files F) (fuel : Nat) (xe : Xesmf F W)
    (runs : Text → RunDir F) (items : List Item) (hp : ∀ it ∈ items, it.Proper obcsOptions) (k : Disk W)
    (h : ∀ it ∈ items, it.opt.long ≠ "--resultsdir".toList) :
    sggetobcs pf pi geod fs fuel xe runs (line items) k = some (k, .exit 2) := by
  unfold sggetobcs
  rw [(parse_items (P := getobcsParser) (good_parsers (by decide +kernel)) items hp).2]
  rintro ⟨-, hr⟩
  obtain ⟨it, hit, e⟩ := hr resultsdirOpt (by decide +kernel) rfl
  exact h it hit e

/-- The options for the boundaries. -/
def Spec.sideOption : Side → Text
  | .N => "--OB_Jnorth".toList | .S => "--OB_Jsouth".toList | .E => "--OB_Ieast".toList | .W => "--OB_Iwest".toList

theorem obOption_some {ns : Ns F} {s : Side} {z : Int} (h : ns (Spec.sideOption s) = some (.int z)) : obOption ns s = .scalar z := by
  have key : ∀ (n : String), ns n.toList = some (.int z) → ((ns.int n).map ObArg.scalar).getD .missing = .scalar z := by
    intro n hn
    rw [Ns.int_of hn]
    rfl
  cases s
  · exact key "--OB_Jnorth" h
  · exact key "--OB_Jsouth" h
  · exact key "--OB_Ieast" h
  · exact key "--OB_Iwest" h

/-- **C88** (violation): with any of the boundary options set to a number other than 0 the process ends with a traceback and nothing is written. -/
theorem C88_boundary_options {W : Type} (pf : Text → Option F) (pi : Text → Option Int) (geod : Geod F) (fs : Files F) (fuel : Nat) (xe : Xesmf F W)
    (runs : Text → RunDir F) (items : List Item) (hp : ∀ it ∈ items, it.Proper obcsOptions) (hc : Complete pf pi obcsOptions items)
    (s : Side) (z : Int) (hz : z ≠ 0) (h : given pf pi items (Spec.sideOption s) = some (.int z)) (k : Disk W) :
    ∃ e, sggetobcs pf pi geod fs fuel xe runs (line items) k = some (k, .raised e) := by
  unfold sggetobcs
  rw [(parse_items (P := getobcsParser) (good_parsers (by decide +kernel)) items hp).1 hc]
  obtain ⟨e, he⟩ := C52_ints_rejected geod fs fuel xe runs (getobcsCall (given pf pi items)) s z hz (obOption_some h) k
  simp only
  rw [he]
  exact ⟨e, rfl⟩

/-- **C88**: the default is used if the directory is given as an empty word. -/
theorem C88_empty_resultsdir {W : Type} (pf : Text → Option F) (pi : Text → Option Int) (geod : Geod F) (fs : Files F) (fuel : Nat) (xe : Xesmf F W)
    (runs : Text → RunDir F) (items : List Item) (hp : ∀ it ∈ items, it.Proper obcsOptions) (hc : Complete pf pi obcsOptions items)
    (h : given pf pi items "--resultsdir".toList = some (.text [])) (k : Disk W) :
    (sggetobcs pf pi geod fs fuel xe runs (line items) k).map (·.1) =
      (getobcs geod fs fuel xe runs { getobcsCall (given pf pi items) with resultsdir := none } k).map (·.1) := by
  unfold sggetobcs
  rw [(parse_items (P := getobcsParser) (good_parsers (by decide +kernel)) items hp).1 hc]
  have e1 : (getobcsCall (given pf pi items)).resultsdir = some [] := by
    show Ns.text _ _ = _
    unfold Ns.text; rw [h]
  have e2 : getobcs geod fs fuel xe runs (getobcsCall (given pf pi items)) k =
      getobcs geod fs fuel xe runs { getobcsCall (given pf pi items) with resultsdir := none } k := by
    have hdir : ∀ p, resultsDirOf (getobcsCall (given pf pi items)) p =
        resultsDirOf { getobcsCall (given pf pi items) with resultsdir := none } p := by
      intro p
      unfold resultsDirOf
      rw [e1]
    unfold getobcs
    simp only [hdir]
    rfl
  simp only
  rw [e2, Option.map_map]
  rfl

/-! ## C89 -/

theorem mentions_iff {args : List Text} {o : Opt} : Mentions args o ↔ Mentioned args o.long := Iff.rfl

theorem writeOut_frame (w : World) (f : Option Text) (r : Py (Grid F × Nat × Nat)) :
    (∀ n, (writeOut w f r).2 ≠ .exit n) ∧ ∀ g, (writeOut w f r).1 g ≠ w g → f = some g ∧ g ≠ [] := by
  unfold writeOut
  split
  · exact ⟨fun n => by simp, fun g h => absurd rfl h⟩
  · split
    · exact ⟨fun n => by simp, fun g h => absurd rfl h⟩
    · exact ⟨fun n => by simp, fun g h => absurd rfl h⟩
    · rename_i f' hne
      refine ⟨fun n e => ?_, fun g h => ?_⟩
      · simp only at e
        split at e <;> cases e
      · simp only [World.put] at h
        by_cases hg : g = f'
        · subst hg
          exact ⟨rfl, fun e => hne (by rw [e])⟩
        · rw [if_neg hg] at h
          exact absurd rfl h

/-- The options `sgregrid` cannot do without. -/
def Spec.regridRequired : List String :=
  ["--ni", "--nj", "--lon1", "--lat1", "--lon2", "--lat2", "--lon_subscale", "--lat_subscale", "--outfile"]
/-- The options `sgaddfringe` and `sgstitch` cannot do without. -/
def Spec.tilesRequired : List String := ["--tilea", "--nia", "--nja", "--tileb", "--nib", "--njb", "--outfile"]

/-- What a command may do with the files of a directory, whatever its arguments: nothing if it exits on its own; otherwise every required option is
mentioned, and at most one file is changed, whose name is on the command line. -/
structure Spec.Tidy (required : List String) (args : List Text) (w : World) (r : World × End) : Prop where
  exit : ∀ n, r.2 = .exit n → r.1 = w
  required : (∀ n, r.2 ≠ .exit n) → ∀ o ∈ required, Mentioned args o.toList
  changed : ∀ f, r.1 f ≠ w f → f ≠ [] ∧ Named args f ∧ ∀ g, g ≠ f → r.1 g = w g

theorem required_long {P : Parser} (hP : P ∈ parsers) : ∀ o ∈ P, o.required = true → o.short = none := by
  have : ∀ P ∈ parsers, ∀ o ∈ P, o.required = true → o.short = none := by decide +kernel
  exact this P hP

theorem tidy_ok {pf : Text → Option F} {pi : Text → Option Int} {P : Parser} (hP : P ∈ parsers) {req : List String}
    (hreq : ∀ n ∈ req, ∃ o ∈ P, o.required = true ∧ o.long = n.toList) {args : List Text} {ns : Ns F}
    (h : parseArgs pf pi P args = .ok ns) (w : World) (r : Py (Grid F × Nat × Nat)) :
    Spec.Tidy req args w (writeOut w (ns.text "--outfile") r) := by
  obtain ⟨h1, h2⟩ := parseArgs_from (good_parsers hP) h
  obtain ⟨f1, f2⟩ := writeOut_frame w (ns.text "--outfile") r
  refine ⟨fun n e => absurd e (f1 n), fun _ n hn => ?_, fun f hf => ?_⟩
  · obtain ⟨o, ho, hq, e⟩ := hreq n hn
    rw [← e]
    exact mentions_iff.1 (h2 o ho hq (required_long hP o ho hq))
  obtain ⟨e1, e2⟩ := f2 f hf
  refine ⟨e2, ?_, fun g hg => Classical.byContradiction fun hne => ?_⟩
  · unfold Ns.text at e1
    split at e1
    · rename_i t ht
      cases e1
      exact h1 _ _ ht
    · cases e1
  · have := (f2 g hne).1
    rw [e1] at this
    cases this
    exact hg rfl

theorem tidy_exit {req : List String} {args : List Text} {w : World} {n : Nat} : Spec.Tidy req args w (w, .exit n) :=
  ⟨fun _ _ => rfl, fun h => absurd rfl (h n), fun _ h => absurd rfl h⟩

/-- **C89**: whatever the arguments, a usage error leaves all files as they were, and a command that goes to work changes at most one file, whose name
is on the command line. -/
theorem C89_only_outfile (pf : Text → Option F) (pi : Text → Option Int) (csv : List Byte → Py (Mat F)) (geod : Geod F) (fuel : Nat)
    (args : List Text) (w : World) :
    Spec.Tidy [] args w (sgmkgrid pf pi geod args w) ∧
    (∀ r, sgregrid pf pi csv geod fuel args w = some r → Spec.Tidy Spec.regridRequired args w r) ∧
    Spec.Tidy Spec.tilesRequired args w (sgaddfringe pf pi geod args w) ∧
    Spec.Tidy Spec.tilesRequired args w (sgstitch pf pi geod args w) := by
  refine ⟨?_, ?_, ?_, ?_⟩
  · unfold sgmkgrid
    split
    · exact tidy_exit
    · rename_i ns hns
      exact tidy_ok (by decide +kernel) (by decide +kernel) hns w _
  · intro r hr
    unfold sgregrid at hr
    split at hr
    · cases hr; exact tidy_exit
    · rename_i ns hns
      obtain ⟨x, -, rfl⟩ := Option.map_eq_some_iff.1 hr
      exact tidy_ok (by decide +kernel) (by decide +kernel) hns w _
  · unfold sgaddfringe
    split
    · exact tidy_exit
    · rename_i ns hns
      exact tidy_ok (by decide +kernel) (by decide +kernel) hns w _
  · unfold sgstitch
    split
    · exact tidy_exit
    · rename_i ns hns
      exact tidy_ok (by decide +kernel) (by decide +kernel) hns w _

theorem outfile_ok {pf : Text → Option F} {pi : Text → Option Int} {P : Parser} (hP : P ∈ parsers) {items : List Item}
    (h : ∀ it ∈ items, it.Proper P) {ns : Ns F} (hns : parseArgs pf pi P (line items) = .ok ns) (w : World) (r : Py (Grid F × Nat × Nat)) (f : Text)
    (hf : (writeOut w (ns.text "--outfile") r).1 f ≠ w f) : given pf pi items "--outfile".toList = some (.text f) := by
  obtain ⟨p1, p2⟩ := parse_items (pf := pf) (pi := pi) (good_parsers hP) items h
  have e : ns = given pf pi items := by
    by_cases hc : Complete pf pi P items
    · rw [p1 hc] at hns; cases hns; rfl
    · rw [p2 hc] at hns; cases hns
  subst e
  have := ((writeOut_frame w _ r).2 f hf).1
  unfold Ns.text at this
  split at this
  · rename_i t ht
    cases this
    exact ht
  · cases this

/-- **C89**: on a command line of the forms of C85 the file changed, if any, is the one given as `--outfile`, however the run ends. -/
theorem C89_outfile (pf : Text → Option F) (pi : Text → Option Int) (csv : List Byte → Py (Mat F)) (geod : Geod F) (fuel : Nat)
    (items : List Item) (w : World) (f : Text) :
    ((∀ it ∈ items, it.Proper mkgridOptions) → (sgmkgrid pf pi geod (line items) w).1 f ≠ w f →
      given pf pi items "--outfile".toList = some (.text f)) ∧
    ((∀ it ∈ items, it.Proper regridOptions) → ∀ r, sgregrid pf pi csv geod fuel (line items) w = some r → r.1 f ≠ w f →
      given pf pi items "--outfile".toList = some (.text f)) ∧
    ((∀ it ∈ items, it.Proper tilesOptions) → (sgaddfringe pf pi geod (line items) w).1 f ≠ w f →
      given pf pi items "--outfile".toList = some (.text f)) ∧
    ((∀ it ∈ items, it.Proper tilesOptions) → (sgstitch pf pi geod (line items) w).1 f ≠ w f →
      given pf pi items "--outfile".toList = some (.text f)) := by
  refine ⟨fun h hf => ?_, fun h r hr hf => ?_, fun h hf => ?_, fun h hf => ?_⟩
  · unfold sgmkgrid at hf
    split at hf
    · exact absurd rfl hf
    · rename_i ns hns
      exact outfile_ok (by decide +kernel) h hns w _ f hf
  · unfold sgregrid at hr
    split at hr
    · cases hr; exact absurd rfl hf
    · rename_i ns hns
      obtain ⟨x, -, rfl⟩ := Option.map_eq_some_iff.1 hr
      exact outfile_ok (by decide +kernel) h hns w _ f hf
  · unfold sgaddfringe at hf
    split at hf
    · exact absurd rfl hf
    · rename_i ns hns
      exact outfile_ok (by decide +kernel) h hns w _ f hf
  · unfold sgstitch at hf
    split at hf
    · exact absurd rfl hf
    · rename_i ns hns
      exact outfile_ok (by decide +kernel) h hns w _ f hf

/-! ## C90 -/

theorem twoTiles_required {pf : Text → Option F} {pi : Text → Option Int} {items : List Item} {a : Text} {nia nja : Nat} {b : Text} {nib njb : Nat}
    {f : Text} (h : TilesLine pf pi items a nia nja b nib njb f) :
    ∀ o ∈ twoTilesParser, o.required = true → given pf pi items o.long ≠ none := by
  intro o ho hq
  simp only [twoTilesParser, List.mem_cons, List.not_mem_nil, or_false] at ho
  rcases ho with rfl | rfl | rfl | rfl | rfl | rfl | rfl | rfl | rfl
  · rw [h.a]; simp
  · rw [h.nia]; simp
  · rw [h.nja]; simp
  · rw [h.b]; simp
  · rw [h.nib]; simp
  · rw [h.njb]; simp
  · rw [h.outfile]; simp
  · cases hq
  · cases hq

/-- `sgstitch` with all its options, both files being there. -/
theorem stitch_line {pf : Text → Option F} {pi : Text → Option Int} (geod : Geod F) {items : List Item} {a : Text} {nia nja : Nat} {b : Text}
    {nib njb : Nat} {f : Text} (h : TilesLine pf pi items a nia nja b nib njb f) (w : World) (fa fb : List Byte) (ha : w a = some fa)
    (hb : w b = some fb) (bytes : List Byte) (hok : stitchMain (F := F) geod (Ns.flag (given pf pi items) "--strict") fa nia nja fb nib njb
      ((w f).getD []) = (bytes, .ok ())) : sgstitch pf pi geod (line items) w = (w.put f bytes, .done) := by
  unfold sgstitch
  rw [run_parse (P := twoTilesParser) (by decide +kernel) h.line (twoTiles_required h)]
  have e1 : Ns.nat (given pf pi items) "--nia" = nia := Ns.nat_of h.nia
  have e2 : Ns.nat (given pf pi items) "--nja" = nja := Ns.nat_of h.nja
  have e3 : Ns.nat (given pf pi items) "--nib" = nib := Ns.nat_of h.nib
  have e4 : Ns.nat (given pf pi items) "--njb" = njb := Ns.nat_of h.njb
  have e5 : Ns.text (given pf pi items) "--outfile" = some f := Ns.text_of h.outfile
  have e6 : Ns.text (given pf pi items) "--tilea" = some a := Ns.text_of h.a
  have e7 : Ns.text (given pf pi items) "--tileb" = some b := Ns.text_of h.b
  unfold stitchMain at hok
  simp only [e1, e2, e3, e4, e5]
  cases hs : (stitch geod (Ns.flag (given pf pi items) "--strict") fa nia nja fb nib njb : Py (Grid F × Nat × Nat)) with
  | error e => rw [hs] at hok; cases hok
  | ok c =>
    rw [hs] at hok
    obtain ⟨c, nic, njc⟩ := c
    have hra : ∃ g : Grid F, readMitgrid fa nia nja (Ns.flag (given pf pi items) "--strict") = .ok g := by
      unfold stitch at hs
      obtain ⟨x, hx, -⟩ := bind_ok_inv hs
      unfold addfringe at hx
      obtain ⟨g, hg, -⟩ := bind_ok_inv hx
      exact ⟨g, hg⟩
    obtain ⟨g, hg⟩ := hra
    have ht : twoTiles w (given pf pi items) = .ok (fa, fb) := by
      unfold twoTiles
      rw [e1, e2, e6, e7]
      simp only [Option.getD_some]
      rw [ha, hb]
      simp only [Py.ok_bind]
      rw [hg]
      rfl
    rw [ht, Py.ok_bind, hs]
    exact writeOut_ok h.named hok

/-- **C90**: the three commands
`sgmkgrid --lon1 .. --lon2 M .. --outfile a`, `sgmkgrid --lon1 M .. --outfile b`, `sgstitch --tilea a .. --tileb b .. --outfile c`
for two boxes with a common side end normally; the file `c` holds the two tiles side by side, and apart from `a`, `b` and `c` no file is changed. -/
theorem C90_stitch_tiles [FloatTotal F] [LawfulF64 F] [ZeroLaw F] (pf : Text → Option F) (pi : Text → Option Int) (geod : Geod F)
    (lon1 lonM lon2 lat1 lat2 : F) (ma mb n : Nat) (hma : 1 ≤ ma) (hmb : 1 ≤ mb) (hn : 1 ≤ n)
    (h : SG.Spec.SideBySide geod lon1 lonM lon2 lat1 lat2) (A B S : List Item) (fa fb fc : Text) (hab : fa ≠ fb)
    (hA : MkgridLine pf pi A lon1 lat1 lonM lat2 ma n fa) (hB : MkgridLine pf pi B lonM lat1 lon2 lat2 mb n fb)
    (hS : TilesLine pf pi S fa ma n fb mb n fc) (w : World) :
    ∃ w1 w2 w3 bytes c a b, sgmkgrid pf pi geod (line A) w = (w1, .done) ∧ sgmkgrid pf pi geod (line B) w1 = (w2, .done) ∧
      sgstitch pf pi geod (line S) w2 = (w3, .done) ∧ w3 fc = some bytes ∧ (∀ g, g ≠ fa → g ≠ fb → g ≠ fc → w3 g = w g) ∧
      readMitgrid bytes (ma + mb) n true = .ok c ∧
      mkgrid geod lon1 lat1 lonM lat2 ma n = .ok (a, (ma : Int), (n : Int)) ∧
      mkgrid geod lonM lat1 lon2 lat2 mb n = .ok (b, (mb : Int), (n : Int)) ∧
      ∀ f, f = .XG ∨ f = .YG → ∃ A B C, a f = .arr A ∧ b f = .arr B ∧ c f = .arr C ∧
        (∀ i j, i ≤ ma → j ≤ n → C.get i j = A.get i j) ∧
        (∀ i j, 1 ≤ i → i ≤ mb → j ≤ n → C.get (ma + i) j = B.get i j) := by
  have k1 := mkgrid_line geod hA hma hn w
  have k2 := mkgrid_line geod hB hmb hn (w.put fa (mkgridMain geod lon1 lat1 lonM lat2 ma n []).1)
  obtain ⟨bytes, c, a, b, h1, h2, h3, h4, h5⟩ := C78_adjacent_tiles geod lon1 lonM lon2 lat1 lat2 ma mb n hma hmb hn h [] []
    ((((w.put fa (mkgridMain geod lon1 lat1 lonM lat2 ma n []).1).put fb (mkgridMain geod lonM lat1 lon2 lat2 mb n []).1) fc).getD [])
    (Ns.flag (given pf pi S) "--strict")
  have k3 := stitch_line geod hS _ _ _ (by
    show (if fa = fb then _ else if fa = fa then _ else _) = _
    rw [if_neg hab, if_pos rfl]) (by
    show (if fb = fb then _ else _) = _
    rw [if_pos rfl]) bytes h1
  refine ⟨_, _, _, bytes, c, a, b, k1, k2, k3, ?_, ?_, h2, h3, h4, h5⟩
  · show (if fc = fc then _ else _) = _
    rw [if_pos rfl]
  · intro g g1 g2 g3
    show (if g = fc then _ else if g = fb then _ else if g = fa then _ else _) = _
    rw [if_neg g3, if_neg g2, if_neg g1]

/-! ## C91 -/

theorem regrid_required {pf : Text → Option F} {pi : Text → Option Int} {items : List Item} {grid : Text} {ni nj : Nat} {lon1 lat1 lon2 lat2 : F}
    {ls lt : Int} {f : Text} (h : RegridLine pf pi items grid ni nj lon1 lat1 lon2 lat2 ls lt f) :
    ∀ o ∈ regridParser, o.required = true → given pf pi items o.long ≠ none := by
  intro o ho hq
  simp only [regridParser, List.mem_cons, List.not_mem_nil, or_false] at ho
  rcases ho with rfl | rfl | rfl | rfl | rfl | rfl | rfl | rfl | rfl | rfl | rfl | rfl | rfl | rfl
  · cases hq
  · cases hq
  · cases hq
  · rw [h.ni]; simp
  · rw [h.nj]; simp
  · rw [h.lon1]; simp
  · rw [h.lat1]; simp
  · rw [h.lon2]; simp
  · rw [h.lat2]; simp
  · rw [h.lonSub]; simp
  · rw [h.latSub]; simp
  · rw [h.outfile]; simp
  · cases hq
  · cases hq

theorem regrid_line {pf : Text → Option F} {pi : Text → Option Int} (csv : List Byte → Py (Mat F)) (geod : Geod F) (fuel : Nat) {items : List Item}
    {grid : Text} {ni nj : Nat} {lon1 lat1 lon2 lat2 : F} {ls lt : Int} {f : Text}
    (h : RegridLine pf pi items grid ni nj lon1 lat1 lon2 lat2 ls lt f) (w : World) (bytes : List Byte)
    (hok : regridMain geod (w.files csv) fuel
      (SG.Spec.cliArgs (Ns.flag (given pf pi items) "--strict") (String.ofList grid) ni nj lon1 lat1 lon2 lat2 ls lt) ((w f).getD []) =
        some (bytes, .ok ())) : sgregrid pf pi csv geod fuel (line items) w = some (w.put f bytes, .done) := by
  unfold sgregrid
  rw [run_parse (P := regridParser) (by decide +kernel) h.line (regrid_required h)]
  have hcall : regridCall (given pf pi items) =
      SG.Spec.cliArgs (Ns.flag (given pf pi items) "--strict") (String.ofList grid) ni nj lon1 lat1 lon2 lat2 ls lt := by
    unfold regridCall SG.Spec.cliArgs
    rw [Ns.text_of h.grid, Ns.text_none h.xg, Ns.text_none h.yg, Ns.nat_of h.ni, Ns.nat_of h.nj, Ns.float_of h.lon1, Ns.float_of h.lat1,
      Ns.float_of h.lon2, Ns.float_of h.lat2, Ns.int_of h.lonSub, Ns.int_of h.latSub]
    rfl
  simp only
  rw [hcall]
  unfold regridMain at hok
  have ea : ({ SG.Spec.cliArgs (Ns.flag (given pf pi items) "--strict") (String.ofList grid) ni nj lon1 lat1 lon2 lat2 ls lt with
      matrices := none } : RegridArgs F) = SG.Spec.cliArgs (Ns.flag (given pf pi items) "--strict") (String.ofList grid) ni nj lon1 lat1 lon2 lat2 ls lt := rfl
  rw [ea] at hok
  split at hok
  · cases hok
  · cases hok
  · rename_i d g ni' nj' hr
    rw [hr]
    have e5 : Ns.text (given pf pi items) "--outfile" = some f := Ns.text_of h.outfile
    simp only [Option.map_some]
    rw [e5]
    injection hok with hok
    exact congrArg some (writeOut_ok h.named hok)

/-- **C91**: `sgmkgrid .. --outfile a` followed by `sgregrid --mitgridfile a .. --outfile b` with the same corner points and subscale 1 end normally,
`b` holds the same `XG` and `YG`, and apart from `a` and `b` no file is changed (`b` may be `a`). -/
theorem C91_regrid_grid [FloatOrder F] [LawfulF64 F] [ZeroLaw F] (pf : Text → Option F) (pi : Text → Option Int) (csv : List Byte → Py (Mat F))
    (geod : Geod F) (lon1 lat1 lon2 lat2 : F) (m n : Nat) (hm : 1 ≤ m) (hn : 1 ≤ n) (g : Grid F) (X Y : Mat F)
    (hg : mkgrid geod lon1 lat1 lon2 lat2 m n = .ok (g, (m : Int), (n : Int))) (hx : g .XG = .arr X) (hy : g .YG = .arr Y)
    (u1 : SG.Spec.UniqueNearest geod lon1 lat1 (.ofF X, .ofF Y) 0 n) (u2 : SG.Spec.UniqueNearest geod lon2 lat2 (.ofF X, .ofF Y) m 0)
    (A R : List Item) (fa fb : Text) (hA : MkgridLine pf pi A lon1 lat1 lon2 lat2 m n fa)
    (hR : RegridLine pf pi R fa m n lon1 lat1 lon2 lat2 1 1 fb) (w : World) (fuel : Nat) (hfuel : 4 ≤ fuel) :
    ∃ w1 w2 bytes g' X' Y', sgmkgrid pf pi geod (line A) w = (w1, .done) ∧ sgregrid pf pi csv geod fuel (line R) w1 = some (w2, .done) ∧
      w2 fb = some bytes ∧ (∀ h, h ≠ fa → h ≠ fb → w2 h = w h) ∧
      readMitgrid bytes m n true = .ok g' ∧ g' .XG = .arr X' ∧ g' .YG = .arr Y' ∧ X.Same X' ∧ Y.Same Y' := by
  have k1 := mkgrid_line geod hA hm hn w
  obtain ⟨bytes, g', X', Y', h1, h2⟩ := C77_mkgrid_then_regrid geod lon1 lat1 lon2 lat2 m n hm hn []
    (((w.put fa (mkgridMain geod lon1 lat1 lon2 lat2 m n []).1) fb).getD []) g X Y hg hx hy u1 u2
    (World.files csv (w.put fa (mkgridMain geod lon1 lat1 lon2 lat2 m n []).1)) (String.ofList fa)
    (by
      intro e
      have := congrArg String.toList e
      rw [String.toList_ofList] at this
      exact hA.named this)
    (by
      show (if (String.ofList fa).toList = fa then _ else _) = _
      rw [String.toList_ofList, if_pos rfl])
    (Ns.flag (given pf pi R) "--strict") fuel hfuel
  have k2 := regrid_line csv geod fuel hR _ bytes h1
  refine ⟨_, _, bytes, g', X', Y', k1, k2, ?_, ?_, h2⟩
  · show (if fb = fb then _ else _) = _
    rw [if_pos rfl]
  · intro h h3 h4
    show (if h = fb then _ else if h = fa then _ else _) = _
    rw [if_neg h4, if_neg h3]

/-! ## Examples -/

namespace ExCli

/-- A reader of whole numbers. -/
def pi : Text → Option Int
  | '-' :: ds => if ds ≠ [] ∧ ds.all Char.isDigit then some (-(textVal ds)) else none
  | ds => if ds ≠ [] ∧ ds.all Char.isDigit then some (textVal ds) else none
def pf (t : Text) : Option Toy := (pi t).map Toy.ofInt

def fl (n : String) : Opt := { long := n.toList, kind := .float }
def int (n : String) : Opt := { long := n.toList, kind := .int }
def txt (n : String) : Opt := { long := n.toList, kind := .text }
def req (o : Opt) : Opt := { o with required := true }

/-- `sgmkgrid --lon1 10 --lat1=20 -v --lon2 50 --lat2 10 --lon_subscale 2 --lat_subscale 1 --outfile a` -/
def A : List Item := [.pair (fl "--lon1") "10".toList, .glued (fl "--lat1") "20".toList, .short verboseOpt 'v', .pair (fl "--lon2") "50".toList,
  .pair (fl "--lat2") "10".toList, .pair (int "--lon_subscale") "2".toList, .pair (int "--lat_subscale") "1".toList,
  .pair (txt "--outfile") "a".toList]

theorem A_readable : Readable pf pi mkgridOptions A := by
  refine ⟨?_, by decide +kernel⟩
  intro it h
  simp only [A, List.mem_cons, List.not_mem_nil, or_false] at h
  rcases h with rfl | rfl | rfl | rfl | rfl | rfl | rfl | rfl
  · exact ⟨by decide +kernel, by decide, .inl (by decide)⟩
  · exact ⟨by decide +kernel, by decide⟩
  · exact ⟨by decide +kernel, by decide, by decide⟩
  all_goals exact ⟨by decide +kernel, by decide, .inl (by decide)⟩

theorem A_line : MkgridLine pf pi A 10 20 50 10 2 1 "a".toList :=
  ⟨A_readable, by decide +kernel, by decide +kernel, by decide +kernel, by decide +kernel, by decide +kernel, by decide +kernel,
    by decide +kernel, by decide⟩

/-- C85: the line is complete, and what it says -/
example : ∃ ns, parseArgs pf pi mkgridParser (["--lon1", "10", "--lat1=20", "-v", "--lon2", "50", "--lat2", "10", "--lon_subscale", "2",
    "--lat_subscale", "1", "--outfile", "a"].map String.toList) = .ok ns ∧ ns "--lat1".toList = some (.float 20) := by
  obtain ⟨h1, -⟩ := C85_command_line pf pi mkgridOptions mkgridParser (by simp [tables]) A A_readable.proper
  obtain ⟨ns, e, h, -⟩ := h1 ⟨A_readable.values, by decide +kernel⟩
  refine ⟨ns, ?_, ?_⟩
  · rw [← e]
    exact congrArg _ (by decide +kernel)
  · exact (h [_] _ _ rfl (by decide +kernel)).trans (by decide +kernel)

/-- ... and the same in another order -/
example : parseArgs pf pi mkgridParser (line A) = parseArgs pf pi mkgridParser (line A.reverse) :=
  C85_order pf pi mkgridOptions mkgridParser (by simp [tables]) A A.reverse A_readable.proper (List.reverse_perm A).symm (by decide +kernel)

/-- C85: a required option is missing -/
example : parseArgs pf pi regridParser (["--ni", "4"].map String.toList) = .exit 2 := by
  refine (C85_command_line pf pi regridOptions regridParser (by simp [tables]) [.pair (req (int "--ni")) "4".toList] ?_).2 ?_
  · intro it h
    cases List.mem_singleton.1 h
    exact ⟨by decide +kernel, by decide, .inl (by decide)⟩
  · rintro ⟨-, h⟩
    revert h
    decide +kernel

/-- C86: `--lon1 -128.5` is taken, `--lon1 -128.` and `--lon1 -1e2` are not -/
example : NegNumber "-128.5".toList := .inr ⟨"128".toList, "5".toList, by decide, ⟨by decide, by decide⟩, by decide⟩
example : parseArgs pf pi mkgridParser ("-v".toList :: "--lon1".toList :: "-128.".toList :: ["--lat1".toList, "20".toList]) = .exit 2 :=
  C86_other_spellings_rejected pf pi mkgridOptions mkgridParser (by simp [tables]) [.short verboseOpt 'v']
    (by intro it h; cases List.mem_singleton.1 h; exact ⟨by decide +kernel, by decide, by decide⟩) (fl "--lon1") (by decide +kernel) (.inl rfl)
    '1' "28.".toList (by decide) (by decide) (fun h => by have := negLike_iff.2 h; revert this; decide) _
example : parseArgs pf pi mkgridParser ("--lon1".toList :: "-1e2".toList :: []) = .exit 2 :=
  C86_other_spellings_rejected pf pi mkgridOptions mkgridParser (by simp [tables]) [] (by intro it h; cases h) (fl "--lon1") (by decide +kernel) (.inl rfl)
    '1' "e2".toList (by decide) (by decide) (fun h => by have := negLike_iff.2 h; revert this; decide) _
example : parseArgs pf pi mkgridParser ("--lon1".toList :: "-inf".toList :: []) = .exit 2 :=
  C86_other_spellings_rejected pf pi mkgridOptions mkgridParser (by simp [tables]) [] (by intro it h; cases h) (fl "--lon1") (by decide +kernel) (.inl rfl)
    'i' "nf".toList (by decide) (by decide) (fun h => by have := negLike_iff.2 h; revert this; decide) _
/-- ... but with a blank they are -/
example : parseArgs pf pi mkgridParser ("--lon1".toList :: "-1e2 ".toList :: []) = parseArgs pf pi mkgridParser ("--lon1=-1e2 ".toList :: []) :=
  C86_negative_numbers_partial pf pi mkgridOptions mkgridParser (by simp [tables]) [] [] (by intro it h; cases h) (fl "--lon1") (by decide +kernel) (.inl rfl)
    "-1e2 ".toList (fun _ => ⟨'1', "e2 ".toList, by decide, by decide⟩) (.inr (.inr (by decide)))

/-- C87: line `A` without `--lon1`, `--lat1` and `-v` -/
example : ∃ (bytes : List Byte) (g : Grid Toy) (X Y : Mat Toy), sgmkgrid pf pi Toy.geod (line (A.drop 3)) (fun _ => none) =
    (World.put (fun _ => none) "a".toList bytes, .done) ∧ readMitgrid bytes 2 1 true = .ok g ∧ g .XG = .arr X ∧ g .YG = .arr Y ∧
    X.get 0 0 = PyFloat.nan ∧ Y.get 2 1 = PyFloat.nan := by
  obtain ⟨bytes, g, X, Y, e1, e2, e3, e4, e5, -, e6, -⟩ := C87_missing_coordinate pf pi Toy.geod (A.drop 3)
    ⟨fun it h => A_readable.proper it (List.mem_of_mem_drop h), fun it h => A_readable.values it (List.mem_of_mem_drop h)⟩ (fun _ => none)
    (by decide +kernel) 2 1
    (by decide) (by decide) "a".toList (by decide) (by decide +kernel) (by decide +kernel) (by decide +kernel)
  exact ⟨bytes, g, X, Y, e1, e2, e3, e4, (e5 (by decide +kernel)).1, (e6 (by decide +kernel)).2⟩
/-- ... with `-v` -/
example (w : World) : sgmkgrid pf pi Toy.geod (line (A.drop 2)) w = (w, .raised .typeError) :=
  C87_missing_coordinate_verbose pf pi Toy.geod (A.drop 2) ⟨fun it h => A_readable.proper it (List.mem_of_mem_drop h),
    fun it h => A_readable.values it (List.mem_of_mem_drop h)⟩ w (by decide +kernel) ⟨"--lon1", by decide, by decide +kernel⟩
/-- ... with the coordinates only, and without the output file -/
example (w : World) : sgmkgrid pf pi Toy.geod (line (A.take 5)) w = (w, .raised .typeError) :=
  C87_missing_subscale pf pi Toy.geod (A.take 5) ⟨fun it h => A_readable.proper it (List.mem_of_mem_take h),
    fun it h => A_readable.values it (List.mem_of_mem_take h)⟩ w (.inl (by decide +kernel))
example (w : World) : ∃ e, sgmkgrid pf pi Toy.geod (line (A.take 7)) w = (w, .raised e) :=
  C87_missing_outfile pf pi Toy.geod (A.take 7) ⟨fun it h => A_readable.proper it (List.mem_of_mem_take h),
    fun it h => A_readable.values it (List.mem_of_mem_take h)⟩ w (by decide +kernel)

/-- C88: `sggetobcs` with all required options, `--OB_Jnorth -1` and an empty results directory -/
def G : List Item := [.pair (int "--OB_Jnorth") "-1".toList, .pair (req (txt "--parent_mitgridfile")) "p".toList,
  .pair (req (int "--ni_parent")) "2".toList, .pair (req (int "--nj_parent")) "1".toList,
  .pair (req (txt "--regional_mitgridfile")) "r".toList, .pair (req (int "--ni_regional")) "2".toList,
  .pair (req (int "--nj_regional")) "1".toList, .pair (req (txt "--parent_resultsdir")) "run".toList,
  .pair (req (txt "--resultsdir")) "".toList]
theorem G_proper : ∀ it ∈ G, it.Proper obcsOptions := by
  intro it h
  simp only [G, List.mem_cons, List.not_mem_nil, or_false] at h
  rcases h with rfl | rfl | rfl | rfl | rfl | rfl | rfl | rfl | rfl
  · exact ⟨by decide +kernel, by decide, .inr (.inr (.inl (.inl ⟨['1'], ⟨by decide, by decide⟩, rfl⟩)))⟩
  all_goals exact ⟨by decide +kernel, by decide, .inl (by decide)⟩
example {W : Type} (fs : Files Toy) (xe : Xesmf Toy W) (runs : Text → RunDir Toy) (k : Disk W) :
    ∃ e, sggetobcs pf pi Toy.geod fs 4 xe runs (line G) k = some (k, .raised e) :=
  C88_boundary_options pf pi Toy.geod fs 4 xe runs G G_proper ⟨by decide +kernel, by decide +kernel⟩ .N (-1) (by decide) (by decide +kernel) k
example {W : Type} (fs : Files Toy) (xe : Xesmf Toy W) (runs : Text → RunDir Toy) (k : Disk W) :
    sggetobcs pf pi Toy.geod fs 4 xe runs (line (G.take 8)) k = some (k, .exit 2) :=
  C88_resultsdir_required pf pi Toy.geod fs 4 xe runs (G.take 8) (fun it h => G_proper it (List.mem_of_mem_take h)) k (by decide +kernel)
example {W : Type} (fs : Files Toy) (xe : Xesmf Toy W) (runs : Text → RunDir Toy) (k : Disk W) :
    (sggetobcs pf pi Toy.geod fs 4 xe runs (line (G.drop 1)) k).map (·.1) =
      (getobcs Toy.geod fs 4 xe runs { getobcsCall (given pf pi (G.drop 1)) with resultsdir := none } k).map (·.1) :=
  C88_empty_resultsdir pf pi Toy.geod fs 4 xe runs (G.drop 1) (fun it h => G_proper it (List.mem_of_mem_drop h))
    ⟨by decide +kernel, by decide +kernel⟩ (by decide +kernel) k

/-- C89: the line `A` changes the file `a`, a line with an unknown option changes nothing -/
example (w : World) : ∀ g, g ≠ "a".toList → (sgmkgrid pf pi Toy.geod (line A) w).1 g = w g := by
  intro g hg
  rw [mkgrid_line Toy.geod A_line (by decide) (by decide) w]
  exact if_neg hg
example (w : World) : (sgmkgrid pf pi Toy.geod (line A ++ ["--force".toList]) w).1 = w :=
  (C89_only_outfile pf pi (fun _ => .error .ioError) Toy.geod 4 _ w).1.exit 2 (by
    unfold sgmkgrid
    have : (match parseArgs pf pi mkgridParser (line A ++ ["--force".toList]) with | .exit n => n | .ok _ => 0) = 2 := by decide +kernel
    cases h : parseArgs pf pi mkgridParser (line A ++ ["--force".toList]) with
    | exit n => rw [h] at this; simp only at this; subst this; rfl
    | ok ns => rw [h] at this; cases this)

/-- ... and the file changed by the line `A` is `a` -/
example (w : World) (f : Text) (h : (sgmkgrid pf pi Toy.geod (line A) w).1 f ≠ w f) : f = "a".toList := by
  have h1 := (C89_outfile pf pi (fun _ => .error .ioError) Toy.geod 4 A w f).1 A_readable.proper h
  have h2 := A_line.outfile
  rw [h1] at h2
  cases h2
  rfl

/-- C90: tiles 10..50 and 50..80 -/
def B : List Item := [.pair (fl "--lon1") "50".toList, .glued (fl "--lat1") "20".toList, .pair (fl "--lon2") "80".toList,
  .pair (fl "--lat2") "10".toList, .pair (int "--lon_subscale") "3".toList, .pair (int "--lat_subscale") "1".toList,
  .pair (txt "--outfile") "b".toList]
theorem B_line : MkgridLine pf pi B 50 20 80 10 3 1 "b".toList := by
  refine ⟨⟨?_, by decide +kernel⟩, by decide +kernel, by decide +kernel, by decide +kernel, by decide +kernel, by decide +kernel,
    by decide +kernel, by decide +kernel, by decide⟩
  intro it h
  simp only [B, List.mem_cons, List.not_mem_nil, or_false] at h
  rcases h with rfl | rfl | rfl | rfl | rfl | rfl | rfl
  · exact ⟨by decide +kernel, by decide, .inl (by decide)⟩
  · exact ⟨by decide +kernel, by decide⟩
  all_goals exact ⟨by decide +kernel, by decide, .inl (by decide)⟩
def S : List Item := [.flag strictOpt, .pair (req (txt "--tilea")) "a".toList, .pair (req (int "--nia")) "2".toList,
  .pair (req (int "--nja")) "1".toList, .pair (req (txt "--tileb")) "b".toList, .pair (req (int "--nib")) "3".toList,
  .pair (req (int "--njb")) "1".toList, .pair (req (txt "--outfile")) "c".toList]
theorem S_line : TilesLine pf pi S "a".toList 2 1 "b".toList 3 1 "c".toList := by
  refine ⟨⟨?_, by decide +kernel⟩, by decide +kernel, by decide +kernel, by decide +kernel, by decide +kernel, by decide +kernel,
    by decide +kernel, by decide +kernel, by decide⟩
  intro it h
  simp only [S, List.mem_cons, List.not_mem_nil, or_false] at h
  rcases h with rfl | rfl | rfl | rfl | rfl | rfl | rfl | rfl
  · exact ⟨by decide +kernel, by decide⟩
  all_goals exact ⟨by decide +kernel, by decide, .inl (by decide)⟩
example (w : World) : ∃ w1 w2 w3, sgmkgrid pf pi Toy.geod (line A) w = (w1, .done) ∧ sgmkgrid pf pi Toy.geod (line B) w1 = (w2, .done) ∧
    sgstitch pf pi Toy.geod (line S) w2 = (w3, .done) ∧ ∀ g, g ≠ "a".toList → g ≠ "b".toList → g ≠ "c".toList → w3 g = w g := by
  obtain ⟨w1, w2, w3, -, -, -, -, h1, h2, h3, -, h4, -⟩ := C90_stitch_tiles pf pi Toy.geod 10 50 80 20 10 2 3 1 (by decide) (by decide) (by decide)
    ExPipe.sideBySide A B S _ _ _ (by decide) A_line B_line S_line w
  exact ⟨w1, w2, w3, h1, h2, h3, h4⟩

/-- C91: `sgregrid --mitgridfile a --ni 2 --nj 1 ... --outfile b` -/
def R : List Item := [.pair (txt "--mitgridfile") "a".toList, .pair (req (int "--ni")) "2".toList, .pair (req (int "--nj")) "1".toList,
  .pair (req (fl "--lon1")) "10".toList, .pair (req (fl "--lat1")) "20".toList, .pair (req (fl "--lon2")) "50".toList,
  .pair (req (fl "--lat2")) "10".toList, .pair (req (int "--lon_subscale")) "1".toList, .pair (req (int "--lat_subscale")) "1".toList,
  .pair (req (txt "--outfile")) "b".toList]
theorem R_line : RegridLine pf pi R "a".toList 2 1 10 20 50 10 1 1 "b".toList := by
  refine ⟨⟨?_, by decide +kernel⟩, by decide +kernel, by decide +kernel, by decide +kernel, by decide +kernel, by decide +kernel,
    by decide +kernel, by decide +kernel, by decide +kernel, by decide +kernel, by decide +kernel, by decide +kernel, by decide +kernel, by decide⟩
  intro it h
  simp only [R, List.mem_cons, List.not_mem_nil, or_false] at h
  rcases h with rfl | rfl | rfl | rfl | rfl | rfl | rfl | rfl | rfl | rfl
  all_goals exact ⟨by decide +kernel, by decide, .inl (by decide)⟩
example (w : World) : ∃ w1 w2, sgmkgrid pf pi Toy.geod (line A) w = (w1, .done) ∧
    sgregrid pf pi (fun _ => .error .ioError) Toy.geod 4 (line R) w1 = some (w2, .done) := by
  obtain ⟨g, e, hx, hy⟩ := ExPipe.grid_ok
  obtain ⟨w1, w2, -, -, -, -, h1, h2, -⟩ := C91_regrid_grid pf pi (fun _ => .error .ioError) Toy.geod 10 20 50 10 2 1 (by decide) (by decide) g _ _ e
    hx hy ExPipe.nw ExPipe.se A R _ _ A_line R_line w 4 (by decide)
  exact ⟨w1, w2, h1, h2⟩

end ExCli

end SG.Cli
