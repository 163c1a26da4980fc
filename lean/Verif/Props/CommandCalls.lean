import Verif.Props.Commands
/-! # C92-C95: the commands do what the functions do -/
set_option linter.unusedSectionVars false

namespace SG.Cli
variable {F : Type} [PyFloat F] [F64 F]

/-! ## Specification -/

namespace Spec

/-- Is `--strict` or `-s` on the line? -/
def asked (items : List Item) : Bool := items.any fun it => it.opt.long = "--strict".toList

/-- How a command ends whose work is the function call `r` and whose output file is `f`: if the call raises, with that exception and all files as
before; if it returns a grid with its counts, normally, with `f` a file of the documented length that reads back as the grid, and all other files as
before. -/
structure Leaves (w : World) (f : Text) (r : Py (Grid F × Nat × Nat)) (out : World × End) : Prop where
  raised : ∀ e, r = .error e → out = (w, .raised e)
  done : ∀ g ni nj, r = .ok (g, ni, nj) → out.2 = .done ∧ (∀ h, h ≠ f → out.1 h = w h) ∧
    ∃ bytes, out.1 f = some bytes ∧ bytes.length = 8 * SG.Spec.nDoubles ni nj ∧
      ∀ strict, ∃ g', readMitgrid bytes ni nj strict = .ok g' ∧ SG.Spec.GridSame g g'

/-- `sgregrid` with any source of the grid. -/
structure RegridSource (pf : Text → Option F) (pi : Text → Option Int) (items : List Item) (grid xg yg : Option Text) (ni nj : Nat)
    (lon1 lat1 lon2 lat2 : F) (lonSub latSub : Int) (f : Text) : Prop where
  line : Readable pf pi regridOptions items
  grid : given pf pi items "--mitgridfile".toList = grid.map .text
  xg : given pf pi items "--xg_file".toList = xg.map .text
  yg : given pf pi items "--yg_file".toList = yg.map .text
  ni : given pf pi items "--ni".toList = some (.int ni)
  nj : given pf pi items "--nj".toList = some (.int nj)
  lon1 : given pf pi items "--lon1".toList = some (.float lon1)
  lat1 : given pf pi items "--lat1".toList = some (.float lat1)
  lon2 : given pf pi items "--lon2".toList = some (.float lon2)
  lat2 : given pf pi items "--lat2".toList = some (.float lat2)
  lonSub : given pf pi items "--lon_subscale".toList = some (.int lonSub)
  latSub : given pf pi items "--lat_subscale".toList = some (.int latSub)
  outfile : given pf pi items "--outfile".toList = some (.text f)
  named : f ≠ []

/-- `sggetobcs` without boundary options. -/
structure ObcsLine (pf : Text → Option F) (pi : Text → Option Int) (items : List Item) (pgrid : Text) (nip njp : Nat) (rgrid : Text)
    (nir njr : Nat) (run dir : Text) : Prop where
  line : Readable pf pi obcsOptions items
  pgrid : given pf pi items "--parent_mitgridfile".toList = some (.text pgrid)
  nip : given pf pi items "--ni_parent".toList = some (.int nip)
  njp : given pf pi items "--nj_parent".toList = some (.int njp)
  rgrid : given pf pi items "--regional_mitgridfile".toList = some (.text rgrid)
  nir : given pf pi items "--ni_regional".toList = some (.int nir)
  njr : given pf pi items "--nj_regional".toList = some (.int njr)
  run : given pf pi items "--parent_resultsdir".toList = some (.text run)
  dir : given pf pi items "--resultsdir".toList = some (.text dir)
  sides : ∀ s, given pf pi items (sideOption s) = none

end Spec
open Spec

/-! ## Flags -/

theorem strict_flag {P : Parser} (hP : P ∈ parsers) : ∀ o ∈ P, o.long = "--strict".toList → o.kind = .flag := by
  have : ∀ P ∈ parsers, ∀ o ∈ P, o.long = "--strict".toList → o.kind = .flag := by decide +kernel
  exact this P hP

theorem flag_strict {pf : Text → Option F} {pi : Text → Option Int} {P : Parser} (hP : P ∈ parsers) {items : List Item}
    (h : Readable pf pi P items) : Ns.flag (given pf pi items) "--strict" = asked items := by
  unfold Ns.flag
  cases hf : items.reverse.find? fun it => it.opt.long = "--strict".toList with
  | none =>
    have hg : given pf pi items "--strict".toList = none := by unfold given; rw [hf]; rfl
    rw [hg]
    rw [List.find?_eq_none] at hf
    symm
    show asked items = false
    unfold asked
    rw [List.any_eq_false]
    intro x hx
    exact hf x (List.mem_reverse.2 hx)
  | some it =>
    have hm : it ∈ items := List.mem_reverse.1 (List.mem_of_find?_eq_some hf)
    have hl : it.opt.long = "--strict".toList := by
      have := List.find?_some hf
      exact of_decide_eq_true this
    have hv : it.value pf pi = some .true_ := by
      have hp := h.proper it hm
      cases it with
      | pair o v => have := strict_flag hP o hp.1 hl; rcases hp.2.1 with e | e | e <;> rw [this] at e <;> cases e
      | glued o v => have := strict_flag hP o hp.1 hl; rcases hp.2 with e | e | e <;> rw [this] at e <;> cases e
      | flag o => rfl
      | short o c => rfl
    have hg : given pf pi items "--strict".toList = some .true_ := by unfold given; rw [hf]; exact hv
    rw [hg]
    symm
    show asked items = true
    unfold asked
    rw [List.any_eq_true]
    exact ⟨it, hm, decide_eq_true hl⟩

/-! ## Writing -/

theorem leaves_ok [LawfulF64 F] [ZeroLaw F] {w : World} {f : Text} (hf : f ≠ []) {r : Py (Grid F × Nat × Nat)}
    (hc : ∀ g ni nj, r = .ok (g, ni, nj) → SG.Spec.Complete g ni nj) : Leaves w f r (writeOut w (some f) r) := by
  refine ⟨fun e he => by rw [he]; rfl, fun g ni nj he => ?_⟩
  obtain ⟨bytes, hw, hlen, -⟩ := C02_byte_layout ((w f).getD []) g ni nj (hc g ni nj he).writable
  rw [he, writeOut_ok hf hw]
  refine ⟨rfl, fun h hh => if_neg hh, bytes, if_pos rfl, hlen, fun strict => ?_⟩
  obtain ⟨bytes', g', hw', hr, hs⟩ := C01_round_trip ZeroLaw.isZero_zero ((w f).getD []) g ni nj strict (hc g ni nj he)
  rw [hw] at hw'
  cases hw'
  exact ⟨g', hr, hs⟩

/-! ## C92 -/

theorem regridSource_required {pf : Text → Option F} {pi : Text → Option Int} {items : List Item} {grid xg yg : Option Text} {ni nj : Nat}
    {lon1 lat1 lon2 lat2 : F} {ls lt : Int} {f : Text} (h : RegridSource pf pi items grid xg yg ni nj lon1 lat1 lon2 lat2 ls lt f) :
    ∀ o ∈ regridParser, o.required = true → given pf pi items o.long ≠ none := by
  intro o ho hq
  simp only [regridParser, List.mem_cons, List.not_mem_nil, or_false] at ho
  rcases ho with rfl | rfl | rfl | rfl | rfl | rfl | rfl | rfl | rfl | rfl | rfl | rfl | rfl | rfl
  · cases hq
  · cases hq
  · cases hq
  · rw [h.ni]; simp
  · rw [h.nj]; simp
  · rw [h.lon1]; simp
  · rw [h.lat1]; simp
  · rw [h.lon2]; simp
  · rw [h.lat2]; simp
  · rw [h.lonSub]; simp
  · rw [h.latSub]; simp
  · rw [h.outfile]; simp
  · cases hq
  · cases hq

theorem regridSource_call {pf : Text → Option F} {pi : Text → Option Int} {items : List Item} {grid xg yg : Option Text} {ni nj : Nat}
    {lon1 lat1 lon2 lat2 : F} {ls lt : Int} {f : Text} (h : RegridSource pf pi items grid xg yg ni nj lon1 lat1 lon2 lat2 ls lt f) :
    regridCall (given pf pi items) = ⟨asked items, grid.map String.ofList, xg.map String.ofList, yg.map String.ofList, none, some ni, some nj,
      lon1, lat1, lon2, lat2, ls, lt⟩ := by
  have ht : ∀ (n : String) (t : Option Text), given pf pi items n.toList = t.map .text → Ns.text (given pf pi items) n = t := by
    intro n t e
    unfold Ns.text
    rw [e]
    cases t <;> rfl
  unfold regridCall
  rw [ht _ _ h.grid, ht _ _ h.xg, ht _ _ h.yg, Ns.nat_of h.ni, Ns.nat_of h.nj, Ns.float_of h.lon1, Ns.float_of h.lat1, Ns.float_of h.lon2,
    Ns.float_of h.lat2, Ns.int_of h.lonSub, Ns.int_of h.latSub, flag_strict (P := regridParser) (by decide +kernel) h.line]
  rfl

/-- **C92**: `sgregrid` does what `regrid` does with the values on the line, from whichever source, and stops if and only if it does. -/
theorem C92_sgregrid [LawfulF64 F] [ZeroLaw F] (pf : Text → Option F) (pi : Text → Option Int) (csv : List Byte → Py (Mat F)) (geod : Geod F)
    (fuel : Nat) (items : List Item) (grid xg yg : Option Text) (ni nj : Nat) (lon1 lat1 lon2 lat2 : F) (ls lt : Int) (f : Text)
    (h : RegridSource pf pi items grid xg yg ni nj lon1 lat1 lon2 lat2 ls lt f) (w : World) (a : RegridArgs F)
    (ha : a = ⟨asked items, grid.map String.ofList, xg.map String.ofList, yg.map String.ofList, none, some ni, some nj, lon1, lat1, lon2, lat2,
      ls, lt⟩) :
    (regrid geod (w.files csv) fuel a = none → sgregrid pf pi csv geod fuel (line items) w = none) ∧
    ∀ d r, regrid geod (w.files csv) fuel a = some (d, r) → ∃ out, sgregrid pf pi csv geod fuel (line items) w = some out ∧
      Leaves w f (r.map fun x => (x.1, x.2.1.toNat, x.2.2.toNat)) out := by
  have hP : regridParser ∈ parsers := by decide +kernel
  have hreq := regridSource_required h
  have hcall := regridSource_call h
  rw [← ha] at hcall
  unfold sgregrid
  rw [run_parse hP h.line hreq]
  simp only
  rw [hcall, Ns.text_of h.outfile]
  refine ⟨fun e => by rw [e]; rfl, fun d r e => ?_⟩
  rw [e]
  refine ⟨_, rfl, leaves_ok h.named fun g m n hr => ?_⟩
  cases r with
  | error x => cases hr
  | ok x =>
    obtain ⟨g', i, j⟩ := x
    cases hr
    have hm : a.matrices = none := by rw [ha]
    cases hs : readSource (w.files csv) a with
    | error x => unfold regrid at e; rw [hs] at e; cases e
    | ok d0 =>
      obtain ⟨_, _, _, _, _, _, _, _, _, _, _, p, q, ls', lt', _, _, _, _, _, _, _, _, _, e1, e2, hc, -⟩ :=
        regrid_success geod (w.files csv) fuel a d0 hs (readSource_files_wf (w.files csv) a hm d0 hs) d g' i j e
      rw [e1, e2]
      exact hc

theorem twoTiles_eq {pf : Text → Option F} {pi : Text → Option Int} {items : List Item} {a : Text} {nia nja : Nat} {b : Text} {nib njb : Nat}
    {f : Text} (h : TilesLine pf pi items a nia nja b nib njb f) (w : World) :
    twoTiles w (given pf pi items) = (do
      let fa ← (match w a with | none => .error .ioError | some b => .ok b)
      let _ ← (readMitgrid fa nia nja (asked items) : Py (Grid F))
      let fb ← (match w b with | none => .error .ioError | some b => .ok b)
      return (fa, fb)) := by
  unfold twoTiles
  rw [Ns.nat_of h.nia, Ns.nat_of h.nja, Ns.text_of h.a, Ns.text_of h.b, flag_strict (by decide +kernel) h.line]
  rfl

theorem run_tiles {pf : Text → Option F} {pi : Text → Option Int} {items : List Item} {a : Text} {nia nja : Nat} {b : Text} {nib njb : Nat}
    {f : Text} (h : TilesLine pf pi items a nia nja b nib njb f) :
    parseArgs pf pi twoTilesParser (line items) = .ok (given pf pi items) := run_parse (by decide +kernel) h.line (twoTiles_required h)

/-- The files are there: what is done with them. -/
theorem twoTiles_bind {α : Type} {pf : Text → Option F} {pi : Text → Option Int} {items : List Item} {a : Text} {nia nja : Nat} {b : Text}
    {nib njb : Nat} {f : Text} (h : TilesLine pf pi items a nia nja b nib njb f) (w : World) (fa fb : List Byte) (ha : w a = some fa)
    (hb : w b = some fb) (k : List Byte × List Byte → Py α)
    (hk : ∀ e, (readMitgrid fa nia nja (asked items) : Py (Grid F)) = .error e → k (fa, fb) = .error e) :
    (twoTiles w (given pf pi items) >>= k) = k (fa, fb) := by
  rw [twoTiles_eq h, ha, hb]
  simp only [Py.ok_bind]
  cases hr : (readMitgrid fa nia nja (asked items) : Py (Grid F)) with
  | error e => rw [hk e hr]; rfl
  | ok g => rfl

theorem addfringe_first {geod : Geod F} {strict : Bool} {fa fb : List Byte} {nia nja nib njb : Nat} {e : PyErr}
    (h : (readMitgrid fa nia nja strict : Py (Grid F)) = .error e) :
    (addfringe geod strict fa nia nja fb nib njb : Py (Edge × Edge × Grid F)) = .error e := by
  unfold addfringe
  rw [h]
  rfl

/-- **C92**: `sgaddfringe` does what `addfringe` does with the files and counts on the line; the output has the counts of tile A. -/
theorem C92_sgaddfringe [LawfulF64 F] [ZeroLaw F] (pf : Text → Option F) (pi : Text → Option Int) (geod : Geod F) (items : List Item)
    (a : Text) (nia nja : Nat) (b : Text) (nib njb : Nat) (f : Text) (h : TilesLine pf pi items a nia nja b nib njb f) (w : World)
    (fa fb : List Byte) (ha : w a = some fa) (hb : w b = some fb) :
    Leaves (F := F) w f ((addfringe geod (asked items) fa nia nja fb nib njb).map fun r => (r.2.2, nia, nja))
      (sgaddfringe pf pi geod (line items) w) := by
  unfold sgaddfringe
  rw [run_tiles h]
  simp only
  rw [Ns.nat_of h.nia, Ns.nat_of h.nja, Ns.nat_of h.nib, Ns.nat_of h.njb, Ns.text_of h.outfile, flag_strict (by decide +kernel) h.line,
    twoTiles_bind h w fa fb ha hb _ fun e he => by rw [addfringe_first he]; rfl]
  have e : (do
      let r ← (addfringe geod (asked items) fa nia nja fb nib njb : Py (Edge × Edge × Grid F))
      return (r.2.2, nia, nja)) = (addfringe geod (asked items) fa nia nja fb nib njb).map fun r => (r.2.2, nia, nja) := by
    cases (addfringe geod (asked items) fa nia nja fb nib njb : Py (Edge × Edge × Grid F)) <;> rfl
  rw [e]
  refine leaves_ok h.named fun g ni nj hr => ?_
  cases hx : (addfringe geod (asked items) fa nia nja fb nib njb : Py (Edge × Edge × Grid F)) with
  | error x => rw [hx] at hr; cases hr
  | ok x =>
    obtain ⟨ea, eb, g'⟩ := x
    rw [hx] at hr
    cases hr
    exact (C43_addfringe_keeps geod (asked items) fa fb nia nja nib njb ea eb _ hx).1

/-- **C92**: `sgstitch` does what `stitch` does with the files and counts on the line. -/
theorem C92_sgstitch [LawfulF64 F] [ZeroLaw F] (pf : Text → Option F) (pi : Text → Option Int) (geod : Geod F) (items : List Item)
    (a : Text) (nia nja : Nat) (b : Text) (nib njb : Nat) (f : Text) (h : TilesLine pf pi items a nia nja b nib njb f) (w : World)
    (fa fb : List Byte) (ha : w a = some fa) (hb : w b = some fb) :
    Leaves (F := F) w f (stitch geod (asked items) fa nia nja fb nib njb) (sgstitch pf pi geod (line items) w) := by
  unfold sgstitch
  rw [run_tiles h]
  simp only
  rw [Ns.nat_of h.nia, Ns.nat_of h.nja, Ns.nat_of h.nib, Ns.nat_of h.njb, Ns.text_of h.outfile, flag_strict (by decide +kernel) h.line,
    twoTiles_bind h w fa fb ha hb _ fun e he => by
      show (stitch geod (asked items) fa nia nja fb nib njb : Py (Grid F × Nat × Nat)) = _
      unfold stitch
      rw [addfringe_first he]
      rfl]
  exact leaves_ok h.named fun g ni nj hr => (C45_stitch_sizes geod (asked items) fa fb nia nja nib njb ni nj g hr).2.1

/-- **C92**: `sgmkgrid` does what `mkgrid` does with the values on the line, also for subscales that are not positive. -/
theorem C92_sgmkgrid [LawfulF64 F] [ZeroLaw F] (pf : Text → Option F) (pi : Text → Option Int) (geod : Geod F) (items : List Item)
    (lon1 lat1 lon2 lat2 : F) (ls lt : Int) (f : Text) (h : Readable pf pi mkgridOptions items)
    (h1 : given pf pi items "--lon1".toList = some (.float lon1)) (h2 : given pf pi items "--lat1".toList = some (.float lat1))
    (h3 : given pf pi items "--lon2".toList = some (.float lon2)) (h4 : given pf pi items "--lat2".toList = some (.float lat2))
    (h5 : given pf pi items "--lon_subscale".toList = some (.int ls)) (h6 : given pf pi items "--lat_subscale".toList = some (.int lt))
    (h7 : given pf pi items "--outfile".toList = some (.text f)) (hf : f ≠ []) (w : World) :
    Leaves w f ((mkgrid geod lon1 lat1 lon2 lat2 ls lt).map fun r => (r.1, r.2.1.toNat, r.2.2.toNat)) (sgmkgrid pf pi geod (line items) w) := by
  unfold sgmkgrid mkgridCall
  rw [run_mkgrid h]
  simp only [Ns.misses_false h1 h2 h3 h4, Bool.and_false, Bool.false_eq_true, if_false]
  simp only [Ns.float_of h1, Ns.float_of h2, Ns.float_of h3, Ns.float_of h4, Ns.int_of h5, Ns.int_of h6, Ns.text_of h7, Option.getD_some]
  refine leaves_ok hf fun g ni nj hr => ?_
  by_cases hpos : ls ≤ 0 ∨ lt ≤ 0
  · obtain ⟨e, he⟩ := C28_mkgrid_rejects geod lon1 lat1 lon2 lat2 ls lt hpos
    rw [he] at hr
    cases hr
  · obtain ⟨m, rfl⟩ := Int.eq_ofNat_of_zero_le (show 0 ≤ ls by omega)
    obtain ⟨n, rfl⟩ := Int.eq_ofNat_of_zero_le (show 0 ≤ lt by omega)
    obtain ⟨g', hg, hc⟩ := C27_mkgrid_sizes geod lon1 lat1 lon2 lat2 m n (by omega) (by omega)
    rw [hg] at hr
    cases hr
    exact hc

/-! ## C93 -/

/-- **C93**: if a tile file is missing `sgaddfringe` and `sgstitch` end with a traceback and all files are as before. -/
theorem C93_missing_tile (pf : Text → Option F) (pi : Text → Option Int) (geod : Geod F) (items : List Item)
    (a : Text) (nia nja : Nat) (b : Text) (nib njb : Nat) (f : Text) (h : TilesLine pf pi items a nia nja b nib njb f) (w : World)
    (hm : w a = none ∨ w b = none) :
    ∃ e, sgaddfringe pf pi geod (line items) w = (w, .raised e) ∧ sgstitch pf pi geod (line items) w = (w, .raised e) := by
  have ht : ∃ e, twoTiles w (given pf pi items) = .error e := by
    rw [twoTiles_eq h]
    cases ha : w a with
    | none => exact ⟨_, rfl⟩
    | some fa =>
      simp only [Py.ok_bind]
      cases hr : (readMitgrid fa nia nja (asked items) : Py (Grid F)) with
      | error e => exact ⟨e, rfl⟩
      | ok g =>
        rcases hm with hm | hm
        · rw [ha] at hm; cases hm
        · rw [hm]; exact ⟨_, rfl⟩
  obtain ⟨e, he⟩ := ht
  refine ⟨e, ?_, ?_⟩
  · unfold sgaddfringe
    rw [run_tiles h]
    simp only
    rw [he]
    rfl
  · unfold sgstitch
    rw [run_tiles h]
    simp only
    rw [he]
    rfl

/-! ## C94 -/

/-- **C94**: `sggetobcs` does what `getobcs` does with the values on the line and no boundaries given; it ends normally if and only if the call
returns, and with the exception of the call otherwise. -/
theorem C94_sggetobcs {W : Type} (pf : Text → Option F) (pi : Text → Option Int) (geod : Geod F) (fs : Files F) (fuel : Nat) (xe : Xesmf F W)
    (runs : Text → RunDir F) (items : List Item) (pgrid : Text) (nip njp : Nat) (rgrid : Text) (nir njr : Nat) (run dir : Text)
    (h : ObcsLine pf pi items pgrid nip njp rgrid nir njr run dir) (k : Disk W) (a : ObcsArgs F)
    (ha : a = ⟨asked items, some (String.ofList pgrid), some nip, some njp, none, some (String.ofList rgrid), some nir, some njr, none, some run,
      fun _ => .missing, some dir⟩) :
    (getobcs geod fs fuel xe runs a k = none → sggetobcs pf pi geod fs fuel xe runs (line items) k = none) ∧
    (∀ k' x, getobcs geod fs fuel xe runs a k = some (k', .ok x) → sggetobcs pf pi geod fs fuel xe runs (line items) k = some (k', .done)) ∧
    (∀ k' e, getobcs geod fs fuel xe runs a k = some (k', .error e) →
      sggetobcs pf pi geod fs fuel xe runs (line items) k = some (k', .raised e)) := by
  have hP : getobcsParser ∈ parsers := by decide +kernel
  have hreq : ∀ o ∈ getobcsParser, o.required = true → given pf pi items o.long ≠ none := by
    intro o ho hq
    simp only [getobcsParser, List.mem_cons, List.not_mem_nil, or_false] at ho
    rcases ho with rfl | rfl | rfl | rfl | rfl | rfl | rfl | rfl | rfl | rfl | rfl | rfl | rfl | rfl
    · rw [h.pgrid]; simp
    · rw [h.nip]; simp
    · rw [h.njp]; simp
    · rw [h.rgrid]; simp
    · rw [h.nir]; simp
    · rw [h.njr]; simp
    · rw [h.run]; simp
    · cases hq
    · cases hq
    · cases hq
    · cases hq
    · rw [h.dir]; simp
    · cases hq
    · cases hq
  have hob : obOption (given pf pi items) = fun _ => .missing := by
    funext s
    have key : ∀ n : String, given pf pi items n.toList = none → ((Ns.int (given pf pi items) n).map ObArg.scalar).getD .missing = .missing := by
      intro n hn
      rw [Ns.int_none hn]
      rfl
    cases s
    · exact key "--OB_Jnorth" (h.sides .N)
    · exact key "--OB_Jsouth" (h.sides .S)
    · exact key "--OB_Ieast" (h.sides .E)
    · exact key "--OB_Iwest" (h.sides .W)
  have hcall : getobcsCall (given pf pi items) = a := by
    rw [ha]
    unfold getobcsCall
    rw [hob, Ns.text_of h.pgrid, Ns.nat_of h.nip, Ns.nat_of h.njp, Ns.text_of h.rgrid, Ns.nat_of h.nir, Ns.nat_of h.njr, Ns.text_of h.run,
      Ns.text_of h.dir, flag_strict hP h.line]
    rfl
  unfold sggetobcs
  rw [run_parse hP h.line hreq]
  simp only
  rw [hcall]
  refine ⟨fun e => by rw [e]; rfl, fun k' x e => by rw [e]; rfl, fun k' x e => by rw [e]; rfl⟩

/-! ## C95 -/

/-- A word the command does not know: it is not the value of an option, nor an option or an abbreviation of one, with or without `=value`. -/
def Spec.Stray (P : Parser) (t : Text) : Prop :=
  t.head? ≠ some '-' ∨ ∃ c s, t = '-' :: '-' :: c :: s ∧ c ≠ '=' ∧
    ∀ o ∈ helpOpt :: P, ¬ ('-' :: '-' :: (c :: s).takeWhile (· ≠ '=')) <+: o.long

omit [PyFloat F] [F64 F] in
theorem consume_extra (pf : Text → Option F) (pi : Text → Option Int) (P : Parser) : ∀ (n : Nat) (ks : List Tok), ks.length ≤ n → ∀ (ns ns' : Ns F),
    consume pf pi P ks ns true ≠ .ok ns'
  | _, [], _, ns, ns' => by
    rw [consume]
    unfold finish
    split
    · intro h; cases h
    · intro h; cases h
  | 0, _ :: _, h, _, _ => by simp at h
  | n + 1, k :: ks, h, ns, ns' => by
    have ih := consume_extra pf pi P n
    have hlen : ks.length ≤ n := by simpa using h
    cases k with
    | arg t => rw [consume]; exact ih ks hlen _ _
    | unknown => rw [consume]; exact ih ks hlen _ _
    | dashes => rw [consume]; exact ih ks hlen _ _
    | opt o s e =>
      cases e with
      | none =>
        rw [consume.eq_def]
        simp only
        split
        · intro h; cases h
        · exact ih ks hlen _ _
        · split
          · rename_i t ks'
            split
            · intro h; cases h
            · exact ih _ (by simp at hlen; omega) _ _
          · intro h; cases h
      | some e =>
        obtain ⟨sep, e⟩ := e
        rw [consume.eq_def]
        simp only
        split
        · split
          · intro h; cases h
          · split
            · intro h; cases h
            · split
              · intro h; cases h
              · rw [Bool.true_or]; exact ih ks hlen _ _
        · split
          · intro h; cases h
          · exact ih ks hlen _ _

theorem stray_long {P : Parser} (hP : Good P) {c : Char} {s : Text} (hc : c ≠ '=')
    (h : ∀ o ∈ helpOpt :: P, ¬ ('-' :: '-' :: (c :: s).takeWhile (· ≠ '=')) <+: o.long) :
    ∃ k, parseOptional P ('-' :: '-' :: c :: s) = some k ∧ (k = .arg ('-' :: '-' :: c :: s) ∨ k = .unknown) := by
  have hp1 : (partEq ('-' :: '-' :: c :: s)).1 = '-' :: '-' :: (c :: s).takeWhile (· ≠ '=') := rfl
  have hkey : ∀ x ∈ optMap P, ¬ ('-' :: '-' :: (c :: s).takeWhile (· ≠ '=')) <+: x.1 := by
    intro x hx hpre
    obtain ⟨ho, e | ⟨d, hd, e⟩⟩ := mem_optMap.1 hx
    · rw [e] at hpre; exact h _ ho hpre
    · have := hpre.length_le
      rw [e, List.takeWhile_cons, if_pos (by simpa using hc)] at this
      simp at this
  have hpt : ('-' :: '-' :: (c :: s).takeWhile (· ≠ '=')) <+: '-' :: '-' :: c :: s :=
    ⟨(c :: s).dropWhile (· ≠ '='), by rw [List.cons_append, List.cons_append, List.takeWhile_append_dropWhile]⟩
  have hl : ∀ t, ('-' :: '-' :: (c :: s).takeWhile (· ≠ '=')) <+: t → lookup P t = none := by
    intro t ht
    cases hl : lookup P t with
    | none => rfl
    | some o => exact absurd ht (hkey _ (lookup_some hl))
  have hcand : candidates P ('-' :: '-' :: c :: s) = [] := by
    unfold candidates
    rw [if_pos (show (List.drop 1 ('-' :: '-' :: c :: s)).head? = some '-' from rfl)]
    simp only
    rw [hp1, List.map_eq_nil_iff, List.filter_eq_nil_iff]
    intro x hx hb
    exact hkey x hx (List.isPrefixOf_iff_prefix.1 hb)
  have hab : ∃ k, parseAbbrev P ('-' :: '-' :: c :: s) = some k ∧ (k = .arg ('-' :: '-' :: c :: s) ∨ k = .unknown) := by
    unfold parseAbbrev
    rw [hcand]
    refine ⟨_, rfl, ?_⟩
    split
    · exact .inl rfl
    · split
      · exact .inl rfl
      · exact .inr rfl
  unfold parseOptional
  rw [if_neg (by simp), hl _ hpt]
  simp only
  rw [if_neg (by simp)]
  cases (partEq ('-' :: '-' :: c :: s)).2 with
  | none => exact hab
  | some e =>
    simp only
    rw [hp1, hl _ (List.prefix_refl _)]
    exact hab

theorem stray_token {P : Parser} (hP : Good P) {t : Text} (h : Stray P t) :
    t ≠ ['-', '-'] ∧ ∃ k, parseOptional P t = some k ∧ (k = .arg t ∨ k = .unknown) := by
  rcases h with h | ⟨c, s, rfl, hc, h⟩
  · exact ⟨by rintro rfl; exact h rfl, _, parseOptional_plain P h, .inl rfl⟩
  · exact ⟨by simp, stray_long hP hc h⟩

theorem stray_parse {pf : Text → Option F} {pi : Text → Option Int} {P : Parser} (hP : P ∈ parsers) {pre : List Item}
    (h : ∀ it ∈ pre, it.Proper P) {t : Text} (ht : Stray P t) (rest : List Text) : ∃ n, parseArgs pf pi P (line pre ++ t :: rest) = .exit n := by
  have hG := good_parsers hP
  obtain ⟨hne, k, hk, hk'⟩ := stray_token hG ht
  unfold parseArgs
  rw [classify_line hG pre _ h, classify, if_neg hne, hk]
  simp only
  cases classify P rest with
  | none => exact ⟨2, rfl⟩
  | some ks =>
    simp only [Option.map_some]
    obtain ⟨i1, i2⟩ := consume_items (pf := pf) (pi := pi) pre (k :: ks) (fun _ => none) false h
    by_cases hall : ∀ it ∈ pre, it.value pf pi ≠ none
    · rw [i1 hall]
      have hx : consume pf pi P (k :: ks) (setAll pf pi (fun _ => none) pre) false = consume pf pi P ks (setAll pf pi (fun _ => none) pre) true := by
        rcases hk' with rfl | rfl <;> rw [consume]
      rw [hx]
      cases hr : consume pf pi P ks (setAll pf pi (fun _ => none) pre) true with
      | exit n => exact ⟨n, rfl⟩
      | ok ns => exact absurd hr (consume_extra pf pi P _ ks (Nat.le_refl _) _ _)
    · exact ⟨2, i2 (by simpa only [Classical.not_forall, Classical.not_not, ne_eq, exists_prop] using hall)⟩

/-- **C95**: with a word the command does not know (a file name without an option, a misspelt option) no command goes to work, whatever else is on
the line after it: the process exits and all files are as before. -/
theorem C95_stray_words {W : Type} (pf : Text → Option F) (pi : Text → Option Int) (csv : List Byte → Py (Mat F)) (geod : Geod F) (fuel : Nat)
    (fs : Files F) (xe : Xesmf F W) (runs : Text → RunDir F) (pre : List Item) (t : Text) (rest : List Text) (w : World) (k : Disk W) :
    ((∀ it ∈ pre, it.Proper mkgridOptions) → Stray mkgridOptions t → ∃ n, sgmkgrid pf pi geod (line pre ++ t :: rest) w = (w, .exit n)) ∧
    ((∀ it ∈ pre, it.Proper regridOptions) → Stray regridOptions t →
      ∃ n, sgregrid pf pi csv geod fuel (line pre ++ t :: rest) w = some (w, .exit n)) ∧
    ((∀ it ∈ pre, it.Proper tilesOptions) → Stray tilesOptions t →
      ∃ n, sgaddfringe pf pi geod (line pre ++ t :: rest) w = (w, .exit n) ∧ sgstitch pf pi geod (line pre ++ t :: rest) w = (w, .exit n)) ∧
    ((∀ it ∈ pre, it.Proper obcsOptions) → Stray obcsOptions t →
      ∃ n, sggetobcs pf pi geod fs fuel xe runs (line pre ++ t :: rest) k = some (k, .exit n)) := by
  refine ⟨fun h ht => ?_, fun h ht => ?_, fun h ht => ?_, fun h ht => ?_⟩
  · obtain ⟨n, e⟩ := stray_parse (P := mkgridParser) (pf := pf) (pi := pi) (by decide +kernel) h ht rest
    exact ⟨n, by unfold sgmkgrid; rw [e]⟩
  · obtain ⟨n, e⟩ := stray_parse (P := regridParser) (pf := pf) (pi := pi) (by decide +kernel) h ht rest
    exact ⟨n, by unfold sgregrid; rw [e]⟩
  · obtain ⟨n, e⟩ := stray_parse (P := twoTilesParser) (pf := pf) (pi := pi) (by decide +kernel) h ht rest
    exact ⟨n, by unfold sgaddfringe; rw [e], by unfold sgstitch; rw [e]⟩
  · obtain ⟨n, e⟩ := stray_parse (P := getobcsParser) (pf := pf) (pi := pi) (by decide +kernel) h ht rest
    exact ⟨n, by unfold sggetobcs; rw [e]⟩

/-! ## Examples -/

namespace ExCli

/-- C92: `sgstitch` and `sgaddfringe` with the line `S`, which asks for strict reading, on any two tile files -/
example (w : World) (fa fb : List Byte) (ha : w "a".toList = some fa) (hb : w "b".toList = some fb) :
    Leaves (F := Toy) w "c".toList (stitch Toy.geod true fa 2 1 fb 3 1) (sgstitch pf pi Toy.geod (line S) w) :=
  C92_sgstitch pf pi Toy.geod S _ 2 1 _ 3 1 _ S_line w fa fb ha hb
example (w : World) (fa fb : List Byte) (ha : w "a".toList = some fa) (hb : w "b".toList = some fb) :
    Leaves (F := Toy) w "c".toList ((addfringe Toy.geod true fa 2 1 fb 3 1).map fun r => (r.2.2, 2, 1)) (sgaddfringe pf pi Toy.geod (line S) w) :=
  C92_sgaddfringe pf pi Toy.geod S _ 2 1 _ 3 1 _ S_line w fa fb ha hb
/-- ... `sgmkgrid` with the line `A`: the call returns a grid, so the command ends normally -/
example (w : World) : (sgmkgrid pf pi Toy.geod (line A) w).2 = .done := by
  have h := C92_sgmkgrid pf pi Toy.geod A 10 20 50 10 2 1 _ A_readable A_line.lon1 A_line.lat1 A_line.lon2 A_line.lat2 A_line.lonSub
    A_line.latSub A_line.outfile (by decide) w
  obtain ⟨g, e, -, -⟩ := ExPipe.grid_ok
  have e' : mkgrid Toy.geod 10 20 50 10 2 1 = .ok (g, 2, 1) := e
  exact (h.done g 2 1 (by rw [e']; rfl)).1
/-- ... `sgregrid` with XG and YG files and without `--strict` -/
def RX : List Item := [.pair (txt "--xg_file") "x.csv".toList, .glued (txt "--yg_file") "y.csv".toList] ++ R.drop 1
theorem RX_line : RegridSource pf pi RX none (some "x.csv".toList) (some "y.csv".toList) 2 1 10 20 50 10 1 1 "b".toList := by
  refine ⟨⟨?_, by decide +kernel⟩, by decide +kernel, by decide +kernel, by decide +kernel, by decide +kernel, by decide +kernel, by decide +kernel,
    by decide +kernel, by decide +kernel, by decide +kernel, by decide +kernel, by decide +kernel, by decide +kernel, by decide⟩
  intro it h
  rcases List.mem_append.1 h with h | h
  · simp only [List.mem_cons, List.not_mem_nil, or_false] at h
    rcases h with rfl | rfl
    · exact ⟨by decide +kernel, by decide, .inl (by decide)⟩
    · exact ⟨by decide +kernel, by decide⟩
  · exact R_line.line.proper it (List.mem_of_mem_drop h)
example (csv : List Byte → Py (Mat Toy)) (w : World) (d : Option (MatDict Toy)) (r : Py (Grid Toy × Int × Int))
    (h : regrid Toy.geod (w.files csv) 4 ⟨false, none, some "x.csv", some "y.csv", none, some 2, some 1, 10, 20, 50, 10, 1, 1⟩ = some (d, r)) :
    ∃ out, sgregrid pf pi csv Toy.geod 4 (line RX) w = some out :=
  have ⟨out, e, _⟩ := (C92_sgregrid pf pi csv Toy.geod 4 RX none _ _ 2 1 10 20 50 10 1 1 _ RX_line w _ rfl).2 d r h
  ⟨out, e⟩

/-- C93: no tile files at all -/
example : ∃ e, sgaddfringe pf pi Toy.geod (line S) (fun _ => none) = (fun _ => none, .raised e) :=
  have ⟨e, h, _⟩ := C93_missing_tile pf pi Toy.geod S _ 2 1 _ 3 1 _ S_line (fun _ => none) (.inl rfl)
  ⟨e, h⟩

/-- C94: the line `G` without its boundary option meets the hypotheses -/
example : ObcsLine pf pi (G.drop 1) "p".toList 2 1 "r".toList 2 1 "run".toList [] :=
  ⟨⟨fun it h => G_proper it (List.mem_of_mem_drop h), by decide +kernel⟩, by decide +kernel, by decide +kernel, by decide +kernel,
    by decide +kernel, by decide +kernel, by decide +kernel, by decide +kernel, by decide +kernel,
    fun s => by cases s <;> decide +kernel⟩

/-- C95: a forgotten option name, a misspelt option -/
example (w : World) : ∃ n, sgmkgrid pf pi Toy.geod (line A ++ "b".toList :: []) w = (w, .exit n) :=
  (C95_stray_words (W := Unit) pf pi (fun _ => .error .ioError) Toy.geod 4 ⟨fun _ => none, fun _ => .error .ioError⟩
    ⟨fun _ _ => .ok (), fun _ _ _ M => .ok M⟩ (fun _ => ⟨[], fun _ => none, fun _ _ => .error .ioError⟩) A "b".toList [] w
    ⟨fun _ => none, fun _ => none⟩).1 A_readable.proper (.inl (by decide))
example : Stray mkgridOptions "--latt1=3".toList := .inr ⟨'l', "att1=3".toList, by decide, by decide, by decide +kernel⟩

end ExCli

end SG.Cli
