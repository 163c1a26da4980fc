import Verif.Props.MdsCompat
/-! # C141: tiles of different sizes

The size of a tile is taken from the first meta file (mds.py:347); it is not among the entries that are compared (C140). -/

set_option linter.unusedSectionVars false
namespace SG
variable {F : Type} [PyFloat F]

namespace Spec

/-- Two descriptions of the same global field; the sizes of the tiles may differ. -/
def SameField (f g : DataSet) : Prop :=
  g.prec = f.prec ∧ g.R = f.R ∧ g.gl = f.gl ∧ g.gm = f.gm ∧ g.gy = f.gy ∧ g.gx = f.gx

end Spec

/-! ## Shapes -/

theorem prodL_cast : ∀ {s t : List Nat}, NdArr.castable s t = true → prodL s = prodL t → 0 < prodL s → s = t
  | [], [], _, _, _ => rfl
  | [], _ :: _, h, _, _ => by simp [NdArr.castable] at h
  | _ :: _, [], h, _, _ => by simp [NdArr.castable] at h
  | a :: s, b :: t, h, hp, h0 => by
    have hp : a * prodL s = b * prodL t := hp
    have h0 : 0 < a * prodL s := h0
    unfold NdArr.castable at h
    simp only [List.length_cons, List.zip_cons_cons, List.all_cons, Bool.and_eq_true, decide_eq_true_eq, Bool.or_eq_true] at h
    obtain ⟨h1, h2, h3⟩ := h
    have hc : NdArr.castable s t = true := by
      unfold NdArr.castable
      rw [Bool.and_eq_true, decide_eq_true_eq]
      exact ⟨by omega, h3⟩
    have ha := Nat.pos_of_mul_pos_right h0
    have hs := Nat.pos_of_mul_pos_left h0
    have hb : 0 < b * prodL t := hp ▸ h0
    have hbp := Nat.pos_of_mul_pos_right hb
    have htp := Nat.pos_of_mul_pos_left hb
    rcases h2 with rfl | rfl
    · have := Nat.eq_of_mul_eq_mul_left ha hp
      rw [prodL_cast hc this hs]
    · have hle : prodL s ≤ prodL t := cast_le hc htp
      rw [Nat.one_mul] at hp
      have : b = 1 := by
        rcases Nat.lt_or_ge 1 b with hb1 | hb1
        · exfalso
          have := Nat.mul_le_mul_right (prodL t) (show 2 ≤ b from hb1)
          omega
        · omega
      subst this
      rw [Nat.one_mul] at hp
      rw [prodL_cast hc hp hs]
where
  cast_le : ∀ {s t : List Nat}, NdArr.castable s t = true → 0 < prodL t → prodL s ≤ prodL t
    | [], [], _, _ => Nat.le_refl _
    | [], _ :: _, h, _ => by simp [NdArr.castable] at h
    | _ :: _, [], h, _ => by simp [NdArr.castable] at h
    | a :: s, b :: t, h, h0 => by
      have h0 : 0 < b * prodL t := h0
      unfold NdArr.castable at h
      simp only [List.length_cons, List.zip_cons_cons, List.all_cons, Bool.and_eq_true, decide_eq_true_eq, Bool.or_eq_true] at h
      obtain ⟨h1, h2, h3⟩ := h
      have hc : NdArr.castable s t = true := by
        unfold NdArr.castable
        rw [Bool.and_eq_true, decide_eq_true_eq]
        exact ⟨by omega, h3⟩
      have hb := Nat.pos_of_mul_pos_right h0
      have ih := cast_le hc (Nat.pos_of_mul_pos_left h0)
      show a * prodL s ≤ b * prodL t
      exact Nat.mul_le_mul (by rcases h2 with rfl | rfl <;> omega) ih

theorem castable_tail {a b : Nat} {s t : List Nat} (h : NdArr.castable (a :: s) (b :: t) = true) : NdArr.castable s t = true := by
  unfold NdArr.castable at *
  simp only [List.length_cons, List.zip_cons_cons, List.all_cons, Bool.and_eq_true, decide_eq_true_eq, Bool.or_eq_true] at *
  exact ⟨by omega, h.2.2⟩

theorem foldl_set_shape (pos : List Nat → List Nat) (f : List Nat → F) : ∀ (l : List (List Nat)) (a : NdArr F),
    (l.foldl (fun a idx => a.set (pos idx) (f idx)) a).shape = a.shape
  | [], _ => rfl
  | _ :: l, _ => foldl_set_shape pos f l _

/-- The target of a tile without levels and region has the size of the tile. -/
theorem axes_size {ds : DataSet} {b : Box} (hgl : ds.gl = []) (hb : b.OK ds) : (axesOf ds b [] none).map (·.T.length) = ds.Z := by
  have key : ∀ {G S Z : List Nat}, Fits G S Z → (plains G S Z).map (·.T.length) = Z := by
    intro G
    induction G with
    | nil => intro S Z h; cases S <;> cases Z <;> first | rfl | exact h.elim
    | cons g G ih =>
      intro S Z h
      cases S with
      | nil => exact h.elim
      | cons s S =>
        cases Z with
        | nil => exact h.elim
        | cons z Z =>
          show List.length _ :: _ = _
          rw [ih h.2]
          congr 1
          simp [plainAxis]
  unfold axesOf DataSet.Z
  rw [hgl]
  simp only [List.zipWith_nil_left, List.nil_append, List.map_append, key hb.mid, List.map_cons, List.map_nil]
  congr 1
  simp [axisY, axisX, plainAxis]

/-! ## One tile -/

theorem levAxes_all {args : RdArgs F} (hlev : args.lev = []) (s : List Nat) : sourceAxes args s none = .ok (s.map List.range) := by
  unfold sourceAxes
  rw [hlev]
  rfl

/-- What a tile of another size than the first one must satisfy to be read as a whole. -/
theorem tileStep_sizes [F64 F] [F32 F] {pf : Text → Py F} {d : MdsDir} {args : RdArgs F} {f ds : DataSet} (hf : Spec.SameField f ds)
    (hrec : args.rec? = none) (hlev : args.lev = []) (hreg : args.region = none) (hgl : f.gl = []) {n : Text} {b : Box} {rest ref : Dict F}
    (ht : TileAt pf d ds n b rest) {nit iit : Nat} {arr : NdArr F} (hs : arr.shape = nit :: f.R :: outDims f [] none) {st' : Option (RdState F)}
    (h : tileStep pf d args nit iit (some (stateWith args f ref arr)) n = .ok st') :
    ∃ arr', st' = some (stateWith args f ref arr') ∧ arr'.shape = arr.shape ∧ f.R * prodL ds.Z = f.R * prodL f.Z ∧ NdArr.castable f.Z ds.Z = true := by
  obtain ⟨e1, e2, e3, e4, e5, e6⟩ := hf
  have hr : Reads args ds [] none (List.range ds.R) := by
    refine ⟨?_, ?_, ?_, ?_, ?_, ?_⟩
    · rw [hlev, e3, hgl]; rfl
    · rw [hlev, e3, hgl]; rfl
    · rw [e3, hgl]; trivial
    · rw [hreg]; trivial
    · rw [hrec]
      show (ints (List.range ds.R)).map _ = _
      unfold ints
      rw [List.map_map]
      apply List.map_congr_left
      intro x _
      show (if (x : Int) < 0 then (x : Int) + (ds.R : Int) else (x : Int)) = (x : Int)
      rw [if_neg (by omega)]
    · intro k hk; exact List.mem_range.1 hk
  unfold tileStep at h
  obtain ⟨t, h1, h⟩ := bind_ok_inv h
  rw [show d.openText n = .ok (d.text n) from if_pos ht.metaIn] at h1
  cases h1
  obtain ⟨m, h1, h⟩ := bind_ok_inv h
  rw [ht.metaData] at h1
  cases h1
  obtain ⟨s, h1, h⟩ := bind_ok_inv h
  have h1 : (if rest.same ref then .ok (stateWith args f ref arr) else .error .valueError) = (.ok s : Py (RdState F)) := h1
  by_cases hsame : rest.same ref = true
  · rw [if_pos hsame] at h1
    cases h1
    obtain ⟨x, h1, h⟩ := bind_ok_inv h
    have h1 : regionOf args (winInts args.region f.gx f.gy) (tileMeta ds b rest) = .ok x := h1
    rw [← e5, ← e6, regionOf_eq hr ht.box] at h1
    cases h1
    dsimp only at h
    obtain ⟨pl, h1, h⟩ := bind_ok_inv h
    have h1 : placeOf (F := F) (arr.shape.drop 2) ((tgts ds b none).map (·.1)) ((tgts ds b none).map (·.2)) none = .ok pl := h1
    have ho : outDims f [] none = outDims ds [] none := by unfold outDims; rw [e4, e5, e6]
    rw [hs, show List.drop 2 (nit :: f.R :: outDims f [] none) = outDims f [] none from rfl, ho, placeOf_eq (w := none) ht.box hr.levOK trivial] at h1
    cases h1
    obtain ⟨arr', h1, h⟩ := bind_ok_inv h
    cases h
    unfold readTile at h1
    rw [hrec] at h1
    have h1 : readAll args (stateWith args f ref arr) iit _ none (fun _ => d.openData (dataName n)) = .ok arr' := h1
    unfold stateWith at h1
    rw [readAll_mk, if_pos (show nonEmptySrc none = true from rfl), show d.openData (dataName n) = .ok (d.data (dataName n)) from if_pos ht.dataIn, Py.ok_bind] at h1
    have hl : (itemsOf (F := F) f.prec args.endian (d.data (dataName n))).length = f.R * prodL ds.Z := by
      rw [itemsOf_length, ht.len, ← e1, ← e2, Nat.mul_div_cancel _ (size_pos _)]
    by_cases hp : (itemsOf (F := F) f.prec args.endian (d.data (dataName n))).length = prodL (f.R :: f.Z)
    · rw [if_neg (fun h => h hp), levAxes_all hlev, Py.ok_bind, axes_size (by rw [e3, hgl]) ht.box] at h1
      unfold NdArr.assign at h1
      split at h1
      · rename_i hcast
        cases h1
        refine ⟨_, rfl, foldl_set_shape _ _ _ _, by rw [← hl, hp]; rfl, ?_⟩
        have hsh : (NdArr.select (NdArr.ofList (Arith.zero : F) (f.R :: f.Z) (itemsOf f.prec args.endian (d.data (dataName n)))) (List.range f.R :: f.Z.map List.range)).shape = f.R :: f.Z := by
          show List.map List.length _ = _
          rw [List.map_cons, List.length_range, List.map_map]
          congr 1
          have : (List.length ∘ List.range) = (id : Nat → Nat) := by funext k; simp
          rw [this, List.map_id]
        rw [hsh] at hcast
        exact castable_tail hcast
      · cases h1
    · rw [if_pos hp] at h1; cases h1
  · rw [if_neg hsame] at h1; cases h1

/-! ## All tiles -/

/-- After the meta files `S`: the first gave the sizes, all others have as many elements. -/
def Sized (args : RdArgs F) (f : DataSet) (size : Text → DataSet) (nit : Nat) (S : List Text) : Option (RdState F) → Prop
  | none => S = []
  | some s => ∃ n0 ∈ S, ∃ ref arr, s = stateWith args (size n0) ref arr ∧ arr.shape = nit :: f.R :: outDims f [] none ∧
      ∀ n ∈ S, f.R * prodL (size n).Z = f.R * prodL (size n0).Z ∧ NdArr.castable (size n0).Z (size n).Z = true

/-- The files of a tile, as part of the field `f`. -/
def IsTile [F64 F] [F32 F] (pf : Text → Py F) (d : MdsDir) (e : Endian) (f : DataSet) (common : Text → Option (List (Val F))) (size : Text → DataSet)
    (tile : Text → Spec.MdsTile F) (n : Text) : Prop :=
  Spec.SameField f (size n) ∧ Spec.TileFile pf d e (size n) common n (tile n)

theorem common_of {f g : DataSet} {common : Text → Option (List (Val F))} (hc : Spec.Common f common) (h : Spec.SameField f g) : Spec.Common g common :=
  ⟨by rw [h.1]; exact hc.prec, by rw [h.2.1]; exact hc.nrec, hc.real⟩

theorem outDims_same {f g : DataSet} (h : Spec.SameField f g) : outDims g [] none = outDims f [] none := by
  unfold outDims; rw [h.2.2.2.1, h.2.2.2.2.1, h.2.2.2.2.2]

theorem sameField_trans {f g h : DataSet} (hg : Spec.SameField f g) (hh : Spec.SameField f h) : Spec.SameField g h :=
  ⟨hh.1.trans hg.1.symm, hh.2.1.trans hg.2.1.symm, hh.2.2.1.trans hg.2.2.1.symm, hh.2.2.2.1.trans hg.2.2.2.1.symm,
    hh.2.2.2.2.1.trans hg.2.2.2.2.1.symm, hh.2.2.2.2.2.trans hg.2.2.2.2.2.symm⟩

section
variable [F64 F] [F32 F] {pf : Text → Py F} {d : MdsDir} {fname : Text} {args : RdArgs F} {f : DataSet} {common : Text → Option (List (Val F))}
  {size : Text → DataSet} {tile : Text → Spec.MdsTile F} (hrec : args.rec? = none) (hlev : args.lev = []) (hreg : args.region = none) (hgl : f.gl = [])
  (hc : Spec.Common f common)
include hrec hlev hreg hgl hc

theorem sized_step {nit iit : Nat} {S : List Text} {st st' : Option (RdState F)} {n : Text} (ht : IsTile pf d args.endian f common size tile n)
    (h1 : ∀ n ∈ S, Spec.SameField f (size n)) (hS : Sized args f size nit S st) (h : tileStep pf d args nit iit st n = .ok st') : Sized args f size nit (S ++ [n]) st' := by
  have hat := (tileAt_of (common_of hc ht.1) ht.2).1
  cases st with
  | none =>
    have hS : S = [] := hS
    subst hS
    have hr : Reads args (size n) [] none (List.range (size n).R) := by
      obtain ⟨e1, e2, e3, e4, e5, e6⟩ := ht.1
      refine ⟨?_, ?_, ?_, ?_, ?_, ?_⟩
      · rw [hlev, e3, hgl]; rfl
      · rw [hlev, e3, hgl]; rfl
      · rw [e3, hgl]; trivial
      · rw [hreg]; trivial
      · rw [hrec]
        show (ints (List.range (size n).R)).map _ = _
        unfold ints
        rw [List.map_map]
        apply List.map_congr_left
        intro x _
        show (if (x : Int) < 0 then (x : Int) + ((size n).R : Int) else (x : Int)) = (x : Int)
        rw [if_neg (by omega)]
      · intro k hk; exact List.mem_range.1 hk
    have hself := rest_same (common_of hc ht.1) ht.2 ht.2
    rw [tileStep_none hr hat hself] at h
    obtain ⟨arr', rfl, h2, h3, h4⟩ := tileStep_sizes (f := size n) ⟨rfl, rfl, rfl, rfl, rfl, rfl⟩ hrec hlev hreg (ht.1.2.2.1.trans hgl) hat
      (by rw [List.length_range]) h
    refine ⟨n, by simp, _, _, rfl, ?_, fun m hm => ?_⟩
    · rw [h2]
      show nit :: (List.range (size n).R).length :: outDims (size n) [] none = _
      rw [List.length_range, ht.1.2.1, outDims_same ht.1]
    · have : m = n := by simpa using hm
      subst this
      exact ⟨rfl, h4⟩
  | some s =>
    obtain ⟨n0, h0, ref, arr, rfl, hsh, hall⟩ := hS
    have h00 : Spec.SameField f (size n0) := h1 n0 h0
    obtain ⟨arr', rfl, h2, h3, h4⟩ := tileStep_sizes (sameField_trans h00 ht.1) hrec hlev hreg (h00.2.2.1.trans hgl) hat
      (hsh.trans (by rw [h00.2.1, outDims_same h00])) h
    rw [h00.2.1] at h3
    refine ⟨n0, by simp [h0], _, _, rfl, h2.trans hsh, fun m hm => ?_⟩
    rcases List.mem_append.1 hm with hm | hm
    · exact hall m hm
    · have : m = n := by simpa using hm
      subst this
      exact ⟨h3, h4⟩

theorem sized_tiles {nit iit : Nat} (l : List Text) {S : List Text} {st st' : Option (RdState F)} (h1 : ∀ n ∈ S, Spec.SameField f (size n))
    (ht : ∀ n ∈ l, IsTile pf d args.endian f common size tile n) (hS : Sized args f size nit S st)
    (h : l.foldlM (tileStep pf d args nit iit) st = .ok st') : Sized args f size nit (S ++ l) st' := by
  induction l generalizing st S with
  | nil => cases h; simpa using hS
  | cons n l ih =>
    rw [List.foldlM_cons] at h
    obtain ⟨st1, h2, h⟩ := bind_ok_inv h
    have := ih (S := S ++ [n]) (fun m hm => by
      rcases List.mem_append.1 hm with hm | hm
      · exact h1 m hm
      · have : m = n := by simpa using hm
        subst this
        exact (ht m (by simp)).1) (fun m hm => ht m (by simp [hm])) (sized_step hrec hlev hreg hgl hc (ht n (by simp)) h1 hS h2) h
    simpa using this

theorem sized_itrs {nit : Nat} (l : List (Option Nat × Nat)) {S : List Text} {st st' : Option (RdState F)} (h1 : ∀ n ∈ S, Spec.SameField f (size n))
    (ht : ∀ x ∈ l, ∀ n ∈ d.metafiles (nameOf fname x.1), IsTile pf d args.endian f common size tile n) (hS : Sized args f size nit S st)
    (h : l.foldlM (itrStep pf d fname args nit) st = .ok st') :
    Sized args f size nit (S ++ l.flatMap fun x => d.metafiles (nameOf fname x.1)) st' := by
  induction l generalizing st S with
  | nil => cases h; simpa using hS
  | cons x l ih =>
    rw [List.foldlM_cons] at h
    obtain ⟨st1, h2, h⟩ := bind_ok_inv h
    have h2 : (d.metafiles (nameOf fname x.1)).foldlM (tileStep pf d args nit x.2) st = .ok st1 := by
      obtain ⟨it, i⟩ := x
      have h2 : (match d.metafiles (nameOf fname it) with
        | [] => (.error .ioError : Py (Option (RdState F)))
        | files => files.foldlM (tileStep pf d args nit i) st) = .ok st1 := by
        cases it <;> exact h2
      cases hf : d.metafiles (nameOf fname it) with
      | nil => rw [hf] at h2; cases h2
      | cons f fs => rw [hf] at h2; exact h2
    have := ih (S := S ++ d.metafiles (nameOf fname x.1)) (fun m hm => by
      rcases List.mem_append.1 hm with hm | hm
      · exact h1 m hm
      · exact (ht x (by simp) m hm).1) (fun y hy => ht y (by simp [hy])) (sized_tiles hrec hlev hreg hgl hc _ h1 (ht x (by simp)) hS h2) h
    simpa using this

end

/-- **C141**: if all records of tiles of different sizes are read, `rdmds` raises. -/
theorem C141_unequal_tiles_raise [F64 F] [F32 F] (pf : Text → Py F) (d : MdsDir) (fname : Text) (args : RdArgs F) (hd : d.names.Nodup)
    (hrec : args.rec? = none) (hlev : args.lev = []) (hreg : args.region = none) (field : DataSet) (hgl : field.gl = [])
    (common : Text → Option (List (Val F))) (hc : Spec.Common field common) (size : Text → DataSet) (tile : Text → Spec.MdsTile F)
    (hfiles : ∀ it ∈ itrsOf d fname args.itrs, ∀ n, Spec.Found d (nameOf fname it) n →
      Spec.SameField field (size n) ∧ Spec.TileFile pf d args.endian (size n) common n (tile n))
    (it it' : Option Nat) (hit : Spec.Requested d fname args.itrs it) (hit' : Spec.Requested d fname args.itrs it') (n n' : Text)
    (hn : Spec.Found d (nameOf fname it) n) (hn' : Spec.Found d (nameOf fname it') n') (hR : 0 < field.R) (hpos : 0 < prodL (size n).Z)
    (hne : (size n).Z ≠ (size n').Z) : ∃ x, rdmds pf d fname args = .error x := by
  cases h : rdmds pf d fname args with
  | error x => exact ⟨x, rfl⟩
  | ok a =>
    exfalso
    unfold rdmds at h
    obtain ⟨st, h1, -⟩ := bind_ok_inv h
    have hz : ∀ {it}, it ∈ itrsOf d fname args.itrs → ∃ i, (it, i) ∈ (itrsOf d fname args.itrs).zipIdx := by
      intro it hit
      obtain ⟨i, hi, e⟩ := List.mem_iff_getElem.1 hit
      exact ⟨i, List.mem_zipIdx_iff_getElem?.2 (by rw [List.getElem?_eq_getElem hi, e])⟩
    have key := sized_itrs (S := []) hrec hlev hreg hgl hc (tile := tile) (size := size) _ (fun n hn => by cases hn) (fun x hx m hm =>
      hfiles x.1 (List.mem_of_getElem? (List.mem_zipIdx_iff_getElem?.1 hx)) m (mem_metafiles.1 hm)) (show Sized args field size _ [] none from rfl) h1
    have hmem : ∀ {it n}, Spec.Requested d fname args.itrs it → Spec.Found d (nameOf fname it) n →
        n ∈ [] ++ (itrsOf d fname args.itrs).zipIdx.flatMap fun x => d.metafiles (nameOf fname x.1) := by
      intro it n hit hn
      obtain ⟨i, hi⟩ := hz (requested_mem hd hit)
      exact List.mem_flatMap.2 ⟨_, hi, mem_metafiles.2 hn⟩
    cases st with
    | none =>
      have key : _ = [] := key
      have := hmem hit hn
      rw [key] at this; cases this
    | some s =>
      obtain ⟨n0, -, ref, arr, -, -, hall⟩ := key
      obtain ⟨a1, a2⟩ := hall n (hmem hit hn)
      obtain ⟨b1, b2⟩ := hall n' (hmem hit' hn')
      have a1 := Nat.eq_of_mul_eq_mul_left hR a1
      have b1 := Nat.eq_of_mul_eq_mul_left hR b1
      have h0 : 0 < prodL (size n0).Z := a1 ▸ hpos
      exact hne ((prodL_cast a2 a1.symm h0).symm.trans (prodL_cast b2 b1.symm h0))

/-! ## One record of tiles of different sizes -/

namespace Spec

/-- A field of `1 + k` rows and `nx` columns; tiles of `zy` rows. -/
def rows (p : Prec) (R k nx zy : Nat) : DataSet := ⟨p, R, [], [], 1 + k, nx, [], zy, nx⟩

end Spec

theorem reads_rows {args : RdArgs F} {r : Nat} (hrec : args.rec? = some (.one r)) (hlev : args.lev = []) (hreg : args.region = none) {p : Prec}
    {R k nx zy : Nat} (hr : r < R) : Reads args (Spec.rows p R k nx zy) [] none [r] where
  lev := by rw [hlev]; rfl
  levLen := by rw [hlev]; rfl
  levOK := trivial
  region := by rw [hreg]; trivial
  recs := by
    rw [hrec]
    show [if (r : Int) < 0 then (r : Int) + (R : Int) else (r : Int)] = [(r : Int)]
    rw [if_neg (by omega)]
  recLt := by
    intro j hj
    have : j = r := by simpa using hj
    subst this
    exact hr

theorem pick_rows {k nx y x : Nat} (hy : y < k) (hx : x < nx) : NdArr.pick [List.range' 1 k, List.range' 0 nx] [y, x] = [1 + y, x] := by
  show [(List.range' 1 k).getD y 0, (List.range' 0 nx).getD x 0] = _
  rw [List.getD_eq_getElem?_getD, List.getElem?_range' hy, List.getD_eq_getElem?_getD, List.getElem?_range' hx]
  simp

/-- The second tile. -/
theorem tileStep_rows [F64 F] [F32 F] {pf : Text → Py F} {d : MdsDir} {args : RdArgs F} {p : Prec} {R k nx r : Nat} (hrec : args.rec? = some (.one r))
    (hlev : args.lev = []) (hreg : args.region = none) (hr : r < R) (hk : 0 < k) {n : Text} {rest ref : Dict F}
    (ht : TileAt pf d (Spec.rows p R k nx k) n ⟨[], 1, 0⟩ rest) (hsame : rest.same ref = true) {arr : NdArr F} (hs : arr.shape = [1, 1, 1 + k, nx]) :
    ∃ arr', tileStep pf d args 1 0 (some (stateWith args (Spec.rows p R k nx 1) ref arr)) n = .ok (some (stateWith args (Spec.rows p R k nx 1) ref arr')) ∧
      arr'.shape = arr.shape ∧ (∀ x, arr'.get [0, 0, 0, x] = arr.get [0, 0, 0, x]) ∧
      ∀ y x, y < k → x < nx → arr'.get [0, 0, 1 + y, x] = (itemsOf p args.endian (d.data (dataName n))).getD (r * nx + x) Arith.zero := by
  have hrd := reads_rows (F := F) hrec hlev hreg (p := p) (k := k) (nx := nx) (zy := k) hr
  have hreg' : regionOf args (stateWith args (Spec.rows p R k nx 1) ref arr).win (tileMeta (Spec.rows p R k nx k) ⟨[], 1, 0⟩ rest) = _ := regionOf_eq hrd ht.box
  have hplace : placeOf (F := F) ((stateWith args (Spec.rows p R k nx 1) ref arr).arr.shape.drop 2) ((tgts (Spec.rows p R k nx k) ⟨[], 1, 0⟩ none).map (·.1))
      ((tgts (Spec.rows p R k nx k) ⟨[], 1, 0⟩ none).map (·.2)) none =
      .ok ⟨[k, nx], NdArr.pick [List.range' 1 k, List.range' 0 nx]⟩ := by
    show placeOf (arr.shape.drop 2) _ _ _ = _
    rw [hs]
    have := placeOf_eq (F := F) (w := none) ht.box hrd.levOK trivial
    refine this.trans ?_
    rw [axes_size rfl ht.box]
    rfl
  have hdata : d.openData (dataName n) = .ok (d.data (dataName n)) := if_pos ht.dataIn
  have hst : stateFor args 1 (some (stateWith args (Spec.rows p R k nx 1) ref arr)) (tileMeta (Spec.rows p R k nx k) ⟨[], 1, 0⟩ rest) =
    .ok (stateWith args (Spec.rows p R k nx 1) ref arr) := if_pos hsame
  have hl : (itemsOf (F := F) p args.endian (d.data (dataName n))).length = R * (k * nx) := by
    rw [itemsOf_length, ht.len]
    show R * (k * (nx * 1)) * p.size / p.size = _
    rw [Nat.mul_div_cancel _ (size_pos _), Nat.mul_one]
  have hle : r * nx + nx ≤ R * (k * nx) := by
    have h1 : (r + 1) * nx ≤ R * nx := Nat.mul_le_mul_right _ hr
    have h2 : R * nx ≤ R * (k * nx) := Nat.mul_le_mul_left _ (Nat.le_mul_of_pos_left _ hk)
    rw [Nat.add_mul, Nat.one_mul] at h1
    omega
  have hprod : prodL [1, nx] = nx := by show 1 * (nx * 1) = nx; omega
  obtain ⟨b1, b2, b3⟩ := NdArr.foldl_set (fun idx => 0 :: 0 :: NdArr.pick [List.range' 1 k, List.range' 0 nx] idx)
    ((NdArr.ofList (Arith.zero : F) [1, nx] (((itemsOf p args.endian (d.data (dataName n))).drop (r * nx)).take nx)).select [List.range 1, List.range nx]).bget
    (indices [k, nx]) arr (by
      intro q hq q' hq' he
      have hq := mem_indices.1 hq
      have hq' := mem_indices.1 hq'
      match q, q', hq, hq' with
      | [y, x], [y', x'], ⟨hy, hx, _⟩, ⟨hy', hx', _⟩ =>
        rw [pick_rows hy hx, pick_rows hy' hx'] at he
        injection he with _ he
        injection he with _ he
        injection he with e1 he
        injection he with e2 _
        rw [show y = y' by omega, e2])
  generalize hout : List.foldl _ arr (indices [k, nx]) = out at b1 b2 b3
  have hread : readTile args (stateWith args (Spec.rows p R k nx 1) ref arr) 0 ⟨[k, nx], NdArr.pick [List.range' 1 k, List.range' 0 nx]⟩ none
      (fun _ => d.openData (dataName n)) = .ok out := by
    unfold readTile
    rw [hrec]
    dsimp only
    rw [hdata, Py.ok_bind]
    show ((recList args.rec? R).zipIdx).foldlM _ arr = _
    rw [hrec]
    show ([((r : Int), 0)] : List (Int × Nat)).foldlM _ arr = _
    rw [List.foldlM_cons]
    unfold readRec
    dsimp only [stateWith]
    rw [if_neg (show ¬ (r : Int) < 0 by omega), if_neg (show ¬ (r : Int) < 0 by omega), if_pos (show nonEmptySrc none = true from rfl)]
    rw [show prodL (Spec.rows p R k nx 1).Z = nx from hprod, Int.toNat_natCast]
    rw [show (Spec.rows p R k nx 1).prec = p from rfl, itemsOf_drop]
    rw [if_neg (by
      rw [List.length_take, List.length_drop, hl]
      intro h
      omega)]
    rw [levAxes_all hlev, Py.ok_bind]
    unfold NdArr.assign
    rw [if_pos (by
      show NdArr.castable [(List.range 1).length, (List.range nx).length] [k, nx] = true
      rw [List.length_range, List.length_range]
      simp [NdArr.castable])]
    rw [← hout]
    rfl
  refine ⟨out, ?_, b1, fun x => ?_, fun y x hy hx => ?_⟩
  · unfold tileStep
    rw [show d.openText n = .ok (d.text n) from if_pos ht.metaIn, Py.ok_bind, ht.metaData, Py.ok_bind, hst, Py.ok_bind]
    dsimp only
    rw [hreg', Py.ok_bind]
    dsimp only
    rw [show (tileMeta (Spec.rows p R k nx k) ⟨[], 1, 0⟩ rest).m2g = none from rfl, hplace, Py.ok_bind]
    have hread : readTile args (stateWith args (Spec.rows p R k nx 1) ref arr) 0 ⟨[k, nx], NdArr.pick [List.range' 1 k, List.range' 0 nx]⟩
      (srcOf (Spec.rows p R k nx k) ⟨[], 1, 0⟩ none) (fun _ => d.openData (n.take (n.length - 4) ++ "data".toList)) = .ok out := hread
    rw [hread, Py.ok_bind]
    rfl
  · apply b3
    intro q hq he
    have hq := mem_indices.1 hq
    match q, hq with
    | [y, x], ⟨hy, hx, _⟩ =>
      rw [pick_rows hy hx] at he
      injection he with _ he
      injection he with _ he
      injection he with e1 he
      omega
  · have := b2 [y, x] (mem_indices.2 ⟨hy, hx, trivial⟩)
    rw [pick_rows hy hx] at this
    rw [this]
    have hz : ∀ l : List F, ((NdArr.ofList (Arith.zero : F) [1, nx] l).select [List.range 1, List.range nx]).bget [y, x] = l.getD x Arith.zero := by
      intro l
      show l.getD (ravel [1, nx] (NdArr.pick [List.range 1, List.range nx] [0, if (List.range nx).length = 1 then 0 else x])) Arith.zero = _
      have e : (if (List.range nx).length = 1 then 0 else x) = x := by
        rw [List.length_range]
        split <;> omega
      rw [e]
      show l.getD (ravel [1, nx] [(List.range 1).getD 0 0, (List.range nx).getD x 0]) Arith.zero = _
      rw [List.getD_eq_getElem?_getD (l := List.range nx), List.getElem?_range hx]
      show l.getD (0 * (nx * 1) + (x * 1 + 0)) Arith.zero = _
      congr 1
      omega
    rw [hz, List.getD_eq_getElem?_getD, List.getD_eq_getElem?_getD, List.getElem?_take_of_lt hx, List.getElem?_drop]

theorem metafiles_pair {d : MdsDir} {fname n1 n2 : Text} (hd : d.names.Nodup) (hfound : ∀ n, Spec.Found d fname n ↔ n = n1 ∨ n = n2)
    (horder : [n1, n2].Sublist d.names) : d.metafiles fname = [n1, n2] := by
  have hmem : ∀ n, n ∈ d.metafiles fname ↔ n = n1 ∨ n = n2 := fun n => mem_metafiles.trans (hfound n)
  have hne : n1 ≠ n2 := by
    have := horder.nodup hd
    simpa using this
  unfold MdsDir.metafiles at hmem ⊢
  dsimp only at hmem ⊢
  generalize hf : (fun n => fname.isPrefixOf n && isTileSuffix (List.drop fname.length n)) = q at hmem ⊢
  by_cases h0 : d.names.filter q ≠ []
  · rw [if_pos h0] at hmem ⊢
    have hsub : [n1, n2].Sublist (d.names.filter q) := by
      have := horder.filter q
      rwa [List.filter_eq_self.2 (fun n hn => by
        have hn : n = n1 ∨ n = n2 := by simpa using hn
        exact (List.mem_filter.1 ((hmem n).2 hn)).2)] at this
    refine (hsub.eq_of_length_le ?_).symm
    apply nodup_length_le (hd.filter q)
    intro x hx
    simpa using (hmem x).1 hx
  · rw [if_neg h0] at hmem
    exfalso
    split at hmem
    · have h1 := (hmem n1).2 (.inl rfl)
      have h2 := (hmem n2).2 (.inr rfl)
      rw [List.mem_singleton] at h1 h2
      exact hne (h1.trans h2.symm)
    · have h1 := (hmem n1).2 (.inl rfl)
      cases h1

theorem rows_same {p : Prec} {R k nx zy zy' : Nat} : Spec.SameField (Spec.rows p R k nx zy) (Spec.rows p R k nx zy') := ⟨rfl, rfl, rfl, rfl, rfl, rfl⟩

theorem restOf_same [F64 F] [F32 F] {pf : Text → Py F} {d : MdsDir} {e : Endian} {p : Prec} {R k nx zy zy' : Nat} {common : Text → Option (List (Val F))}
    (hc : Spec.Common (Spec.rows p R k nx 1) common) {n n' : Text} {t t' : Spec.MdsTile F}
    (h : Spec.TileFile pf d e (Spec.rows p R k nx zy) common n t) (h' : Spec.TileFile pf d e (Spec.rows p R k nx zy') common n' t') :
    (restOf pf d n).same (restOf pf d n') = true := by
  obtain ⟨-, a1, a2⟩ := tileAt_of (common_of hc rows_same) h
  obtain ⟨-, b1, b2⟩ := tileAt_of (common_of hc rows_same) h'
  apply Dict.same_of_get a1 b1 (fun k => by rw [a2, b2]; rfl)
  intro k vs x hk hx
  rw [a2] at hk
  by_cases h1 : k = "dimList".toList
  · rw [if_pos h1] at hk
    injection hk with hk
    rw [← hk] at hx
    obtain ⟨z, -, hz⟩ := List.mem_map.1 hx
    cases hz
  · rw [if_neg h1] at hk
    by_cases h2 : k ∈ Spec.ownKeys
    · rw [if_pos h2] at hk; cases hk
    · rw [if_neg h2] at hk
      exact hc.real k vs x hk hx

/-- **C141**: one record of two tiles, the first listed with one row, the second with `k`: there are `k` copies of one row of the second tile, and
not even of the record asked for. -/
theorem C141_record_repeated [F64 F] [F32 F] [LawfulF64 F] (pf : Text → Py F) (d : MdsDir) (fname : Text) (e : Endian) (fill : F) (hd : d.names.Nodup)
    (p : Prec) (R k nx r : Nat) (hk : 0 < k) (hr : r < R) (common : Text → Option (List (Val F))) (hc : Spec.Common (Spec.rows p R k nx 1) common)
    (n1 n2 : Text) (t1 t2 : Spec.MdsTile F) (hfound : ∀ n, Spec.Found d fname n ↔ n = n1 ∨ n = n2) (horder : [n1, n2].Sublist d.names)
    (hb1 : t1.box = ⟨[], 0, 0⟩) (hb2 : t2.box = ⟨[], 1, 0⟩) (h1 : Spec.TileFile pf d e (Spec.rows p R k nx 1) common n1 t1)
    (h2 : Spec.TileFile pf d e (Spec.rows p R k nx k) common n2 t2) :
    ∃ a, rdmds pf d fname { endian := e, fill := fill, rec? := some (.one r) } = .ok a ∧ a.shape = [1 + k, nx] ∧
      (∀ x, x < nx → a.get [0, x] = Spec.rounded p (t1.elem [r, 0, x])) ∧
      ∀ y x, y < k → x < nx → a.get [1 + y, x] = Spec.rounded p (t2.elem [r / k, r % k, x]) := by
  have at1 := (tileAt_of hc h1).1
  have at2 := (tileAt_of (common_of hc rows_same) h2).1
  rw [hb1] at at1
  rw [hb2] at at2
  have hrd := reads_rows (F := F) (args := { endian := e, fill := fill, rec? := some (.one r) }) rfl rfl rfl (p := p) (k := k) (nx := nx) (zy := 1) hr
  obtain ⟨a1, s1, p1, p2⟩ := tileStep_some hrd at1 (restOf_same hc h1 h1) 1 0 ⟨[1, 1, 1 + k, nx], fun _ => fill⟩ rfl
  rw [show (⟨[1, 1, 1 + k, nx], fun _ => fill⟩ : NdArr F) = ⟨1 :: [r].length :: outDims (Spec.rows p R k nx 1) [] none, fun _ => fill⟩ from rfl] at s1
  rw [← tileStep_none hrd at1 (restOf_same hc h1 h1) 1 0] at s1
  obtain ⟨a2, s2, q1, q2, q3⟩ := tileStep_rows (args := { endian := e, fill := fill, rec? := some (.one r) }) rfl rfl rfl hr hk at2
    (restOf_same hc h2 h1) (arr := a1) p1
  have hsh : a2.shape = [1, 1, 1 + k, nx] := q1.trans p1
  have hrun : rdmds pf d fname { endian := e, fill := fill, rec? := some (.one r) } = a2.reshape Arith.zero [1 + k, nx] := by
    unfold rdmds
    show ([(none, 0)] : List (Option Nat × Nat)).foldlM (itrStep pf d fname _ 1) none >>= _ = _
    rw [List.foldlM_cons]
    have : itrStep pf d fname ({ endian := e, fill := fill, rec? := some (.one r) } : RdArgs F) 1 none (none, 0) = .ok (some (stateWith { endian := e, fill := fill, rec? := some (.one r) } (Spec.rows p R k nx 1) (restOf pf d n1) a2)) := by
      unfold itrStep
      dsimp only
      rw [metafiles_pair hd hfound horder]
      dsimp only
      rw [List.foldlM_cons, s1, Py.ok_bind, List.foldlM_cons, s2]
      rfl
    rw [this, Py.ok_bind]
    show a2.reshape Arith.zero ([] ++ a2.shape.drop 2) = _
    rw [hsh]
    rfl
  have hget : ∀ y x, y < 1 + k → x < nx → (NdArr.ofList (Arith.zero : F) [1 + k, nx] a2.toList).get [y, x] = a2.get [0, 0, y, x] := by
    intro y x hy hx
    apply NdArr.ofList_get
    have := NdArr.toList_get a2 (idx := [0, 0, y, x]) (by rw [hsh]; exact ⟨by omega, by omega, hy, hx, trivial⟩)
    rw [← this, hsh]
    congr 1
    show y * (nx * 1) + (x * 1 + 0) = 0 * _ + (0 * _ + (y * (nx * 1) + (x * 1 + 0)))
    omega
  refine ⟨NdArr.ofList Arith.zero [1 + k, nx] a2.toList, ?_, rfl, fun x hx => ?_, fun y x hy hx => ?_⟩
  · rw [hrun]
    unfold NdArr.reshape
    rw [if_pos (by rw [hsh]; show (1 + k) * _ = 1 * (1 * ((1 + k) * _)); omega)]
  · rw [hget 0 x (by omega) hx, q2]
    have hbox : InBox (axesOf (Spec.rows p R k nx 1) ⟨[], 0, 0⟩ [] none) [0, x] := by
      refine ⟨⟨Nat.zero_le _, ?_⟩, ⟨Nat.zero_le _, ?_⟩, trivial⟩
      · show 0 < 0 + 1; omega
      · show x < 0 + nx; omega
    rw [p2 0 0 [0, x] r rfl ⟨by show 0 < 1 + k; omega, hx, trivial⟩, if_pos ⟨rfl, hbox⟩]
    exact tileVal_eq h1 hr (show InShape [1, nx] [0, x - 0] from ⟨by omega, by omega, trivial⟩)
  · rw [hget (1 + y) x (by omega) hx, q3 y x hy hx]
    have hin : InShape (Spec.rows p R k nx k).Z [r % k, x] := ⟨Nat.mod_lt _ hk, hx, trivial⟩
    have := tileVal_eq h2 (r := r / k) (s := [r % k, x]) (Nat.lt_of_le_of_lt (Nat.div_le_self _ _) hr) hin
    refine Eq.trans ?_ this
    unfold tileVal
    show _ = (itemsOf p e (d.data (dataName n2))).getD _ Arith.zero
    congr 1
    show r * nx + x = r / k * (k * (nx * 1)) + (r % k * (nx * 1) + (x * 1 + 0))
    have hdm := Nat.div_add_mod r k
    have : (k * (r / k) + r % k) * nx = r / k * (k * nx) + r % k * nx := by
      rw [Nat.add_mul, Nat.mul_comm k, Nat.mul_assoc]
    rw [hdm] at this
    simp only [Nat.mul_one, Nat.add_zero]
    omega

/-- **C141**: the same call if the directory lists the larger tile first. -/
theorem C141_other_order_raises [F64 F] [F32 F] [LawfulF64 F] (pf : Text → Py F) (d : MdsDir) (fname : Text) (e : Endian) (fill : F) (hd : d.names.Nodup)
    (p : Prec) (R k nx r : Nat) (hk : 1 < k) (hr : r < R) (common : Text → Option (List (Val F))) (hc : Spec.Common (Spec.rows p R k nx 1) common)
    (n1 n2 : Text) (t1 t2 : Spec.MdsTile F) (hfound : ∀ n, Spec.Found d fname n ↔ n = n1 ∨ n = n2) (horder : [n2, n1].Sublist d.names)
    (hb1 : t1.box = ⟨[], 0, 0⟩) (hb2 : t2.box = ⟨[], 1, 0⟩) (h1 : Spec.TileFile pf d e (Spec.rows p R k nx 1) common n1 t1)
    (h2 : Spec.TileFile pf d e (Spec.rows p R k nx k) common n2 t2) :
    rdmds pf d fname { endian := e, fill := fill, rec? := some (.one r) } = .error .valueError := by
  have at1 := (tileAt_of hc h1).1
  have at2 := (tileAt_of (common_of hc rows_same) h2).1
  rw [hb1] at at1
  rw [hb2] at at2
  have hrd := reads_rows (F := F) (args := { endian := e, fill := fill, rec? := some (.one r) }) rfl rfl rfl (p := p) (k := k) (nx := nx) (zy := k) hr
  have hrd1 := reads_rows (F := F) (args := { endian := e, fill := fill, rec? := some (.one r) }) rfl rfl rfl (p := p) (k := k) (nx := nx) (zy := 1) hr
  obtain ⟨a1, s1, p1, -⟩ := tileStep_some hrd at2 (restOf_same hc h2 h2) 1 0 ⟨[1, 1, 1 + k, nx], fun _ => fill⟩ rfl
  rw [show (⟨[1, 1, 1 + k, nx], fun _ => fill⟩ : NdArr F) = ⟨1 :: [r].length :: outDims (Spec.rows p R k nx k) [] none, fun _ => fill⟩ from rfl] at s1
  rw [← tileStep_none hrd at2 (restOf_same hc h2 h2) 1 0] at s1
  have hreg' : regionOf ({ endian := e, fill := fill, rec? := some (.one r) } : RdArgs F) (stateWith { endian := e, fill := fill, rec? := some (.one r) } (Spec.rows p R k nx k) (restOf pf d n2) a1).win
    (tileMeta (Spec.rows p R k nx 1) ⟨[], 0, 0⟩ (restOf pf d n1)) = _ := regionOf_eq hrd1 at1.box
  have hplace : placeOf (F := F) ((stateWith { endian := e, fill := fill, rec? := some (.one r) } (Spec.rows p R k nx k) (restOf pf d n2) a1).arr.shape.drop 2)
      ((tgts (Spec.rows p R k nx 1) ⟨[], 0, 0⟩ none).map (·.1)) ((tgts (Spec.rows p R k nx 1) ⟨[], 0, 0⟩ none).map (·.2)) none =
      .ok ⟨[1, nx], NdArr.pick [List.range' 0 1, List.range' 0 nx]⟩ := by
    show placeOf (a1.shape.drop 2) _ _ _ = _
    rw [p1]
    have := placeOf_eq (F := F) (w := none) at1.box hrd1.levOK trivial
    refine this.trans ?_
    rw [axes_size rfl at1.box]
    rfl
  have s2 : tileStep pf d { endian := e, fill := fill, rec? := some (.one r) } 1 0
      (some (stateWith { endian := e, fill := fill, rec? := some (.one r) } (Spec.rows p R k nx k) (restOf pf d n2) a1)) n1 = .error .valueError := by
    unfold tileStep
    rw [show d.openText n1 = .ok (d.text n1) from if_pos at1.metaIn, Py.ok_bind, at1.metaData, Py.ok_bind]
    rw [show stateFor _ 1 (some (stateWith { endian := e, fill := fill, rec? := some (.one r) } (Spec.rows p R k nx k) (restOf pf d n2) a1))
      (tileMeta (Spec.rows p R k nx 1) ⟨[], 0, 0⟩ (restOf pf d n1)) = .ok _ from if_pos (restOf_same hc h1 h2), Py.ok_bind]
    dsimp only
    rw [hreg', Py.ok_bind]
    dsimp only
    rw [show (tileMeta (Spec.rows p R k nx 1) ⟨[], 0, 0⟩ (restOf pf d n1)).m2g = none from rfl, hplace, Py.ok_bind]
    unfold readTile
    dsimp only
    rw [show d.openData (n1.take (n1.length - 4) ++ "data".toList) = .ok (d.data (dataName n1)) from if_pos at1.dataIn, Py.ok_bind]
    show (([((r : Int), 0)] : List (Int × Nat)).foldlM _ a1 >>= _) = _
    rw [List.foldlM_cons]
    unfold readRec
    dsimp only [stateWith]
    rw [if_neg (show ¬ (r : Int) < 0 by omega), if_neg (show ¬ (r : Int) < 0 by omega), if_pos (show nonEmptySrc (srcOf (Spec.rows p R k nx 1) ⟨[], 0, 0⟩ none) = true from rfl)]
    split
    · rfl
    · rw [show srcOf (Spec.rows p R k nx 1) ⟨[], 0, 0⟩ none = none from rfl, levAxes_all rfl, Py.ok_bind]
      unfold NdArr.assign
      rw [if_neg (by
        show ¬ NdArr.castable [(List.range k).length, (List.range nx).length] [1, nx] = true
        rw [List.length_range, List.length_range]
        simp [NdArr.castable]
        omega)]
      rfl
  unfold rdmds
  show ([(none, 0)] : List (Option Nat × Nat)).foldlM (itrStep pf d fname _ 1) none >>= _ = _
  rw [List.foldlM_cons]
  have : itrStep pf d fname ({ endian := e, fill := fill, rec? := some (.one r) } : RdArgs F) 1 none (none, 0) = .error .valueError := by
    unfold itrStep
    dsimp only
    rw [metafiles_pair hd (fun n => (hfound n).trans Or.comm) horder]
    dsimp only
    rw [List.foldlM_cons, s1, Py.ok_bind, List.foldlM_cons, s2]
    rfl
  rw [this]
  rfl

/-! ## Cases

Two records of three rows and two columns; the first tile has one row, the second two. -/

namespace ExSizes

open ExTiles (pf name1 name2 data1 data2 shared shared_get)

def field (zy : Nat) : DataSet := Spec.rows .f64 2 2 2 zy

def tile1 : Spec.MdsTile Toy := ⟨⟨[], 0, 0⟩, fun i => ⟨BitVec.ofNat 64 (100 + ravel [2, 1, 2] i)⟩⟩
def tile2 : Spec.MdsTile Toy := ⟨⟨[], 1, 0⟩, fun i => ⟨BitVec.ofNat 64 (200 + ravel [2, 2, 2] i)⟩⟩

def text1 : Text := "dimList = [ 2, 1, 2,\n 3, 1, 1 ];\ndataprec = [ 'float64' ];\nnrecords = [ 2 ];\n".toList
def text2 : Text := "dimList = [ 2, 1, 2,\n 3, 2, 3 ];\ndataprec = [ 'float64' ];\nnrecords = [ 2 ];\n".toList

/-- The directory, listed in the order of the numbers or in the other order. -/
def dir (names : List Text) : MdsDir := ⟨names, fun n => if n = name1 then text1 else text2,
  fun n => if n = data1 then (indices [2, 1, 2]).flatMap fun i => itemBytes .f64 .big (tile1.elem i)
    else (indices [2, 2, 2]).flatMap fun i => itemBytes .f64 .big (tile2.elem i)⟩

def up : List Text := [name1, data1, name2, data2]
def down : List Text := [name2, data2, name1, data1]

theorem common : Spec.Common (field 1) (Dict.get shared) where
  prec := by decide +kernel
  nrec := by decide +kernel
  real := ExTiles.common.real

theorem files1 {names : List Text} (h : names = up ∨ names = down) : Spec.TileFile pf (dir names) .big (field 1) (Dict.get shared) name1 tile1 where
  fits := ⟨trivial, by decide +kernel, by decide +kernel⟩
  metaIn := by rcases h with rfl | rfl <;> decide +kernel
  says := ⟨("dimList".toList, [.int 2, .int 1, .int 2, .int 3, .int 1, .int 1]) :: shared, by rcases h with rfl | rfl <;> decide +kernel, by decide +kernel, by decide +kernel,
    fun k hk => shared_get hk⟩
  dataIn := by rcases h with rfl | rfl <;> decide +kernel
  data := by rcases h with rfl | rfl <;> decide +kernel

theorem files2 {names : List Text} (h : names = up ∨ names = down) : Spec.TileFile pf (dir names) .big (field 2) (Dict.get shared) name2 tile2 where
  fits := ⟨trivial, by decide +kernel, by decide +kernel⟩
  metaIn := by rcases h with rfl | rfl <;> decide +kernel
  says := ⟨("dimList".toList, [.int 2, .int 1, .int 2, .int 3, .int 2, .int 3]) :: shared, by rcases h with rfl | rfl <;> decide +kernel, by decide +kernel, by decide +kernel,
    fun k hk => shared_get hk⟩
  dataIn := by rcases h with rfl | rfl <;> decide +kernel
  data := by rcases h with rfl | rfl <;> decide +kernel

theorem found {names : List Text} (h : names = up ∨ names = down) (n : Text) : Spec.Found (dir names) "T".toList n ↔ n = name1 ∨ n = name2 := by
  rw [← mem_metafiles]
  rcases h with rfl | rfl
  · rw [show (dir up).metafiles "T".toList = [name1, name2] by decide +kernel]; simp
  · rw [show (dir down).metafiles "T".toList = [name2, name1] by decide +kernel]; simp [or_comm]

/-- Record 1: both rows of the second tile are row 1 of its record 0. -/
example : ∃ a, rdmds pf (dir up) "T".toList { fill := ⟨7⟩, rec? := some (.one (1 : Nat)) } = .ok a ∧ a.shape = [3, 2] ∧
    a.get [1, 0] = tile2.elem [0, 1, 0] ∧ a.get [2, 0] = tile2.elem [0, 1, 0] ∧ tile2.elem [0, 1, 0] ≠ tile2.elem [1, 0, 0] := by
  obtain ⟨a, h1, h2, -, h4⟩ := C141_record_repeated pf (dir up) "T".toList .big ⟨7⟩ (by decide +kernel) .f64 2 2 2 1 (by decide) (by decide) _ common
    name1 name2 tile1 tile2 (found (.inl rfl)) (by decide +kernel) rfl rfl (files1 (.inl rfl)) (files2 (.inl rfl))
  exact ⟨a, h1, h2, h4 0 0 (by decide) (by decide), h4 1 0 (by decide) (by decide), by decide +kernel⟩

example : rdmds pf (dir down) "T".toList { fill := ⟨7⟩, rec? := some (.one (1 : Nat)) } = .error .valueError :=
  C141_other_order_raises pf (dir down) "T".toList .big ⟨7⟩ (by decide +kernel) .f64 2 2 2 1 (by decide) (by decide) _ common
    name1 name2 tile1 tile2 (found (.inr rfl)) (by decide +kernel) rfl rfl (files1 (.inr rfl)) (files2 (.inr rfl))

/-- All records. -/
example : ∃ x, rdmds pf (dir up) "T".toList { fill := ⟨7⟩ } = .error x :=
  C141_unequal_tiles_raise pf (dir up) "T".toList { fill := ⟨7⟩ } (by decide +kernel) rfl rfl rfl (field 1) rfl _ common
    (fun n => if n = name1 then field 1 else field 2) (fun n => if n = name1 then tile1 else tile2)
    (fun it hit n hn => by
      have : it = none := List.mem_singleton.1 hit
      subst this
      rcases (found (.inl rfl) n).1 hn with rfl | rfl
      · exact ⟨⟨rfl, rfl, rfl, rfl, rfl, rfl⟩, files1 (.inl rfl)⟩
      · exact ⟨⟨rfl, rfl, rfl, rfl, rfl, rfl⟩, files2 (.inl rfl)⟩)
    none none rfl rfl name1 name2 ((found (.inl rfl) _).2 (.inl rfl)) ((found (.inl rfl) _).2 (.inr rfl)) (by decide) (by decide +kernel) (by decide +kernel)

end ExSizes

end SG
