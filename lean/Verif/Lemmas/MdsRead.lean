import Verif.Lemmas.MdsData
/-! `rdmds` step by step. -/

set_option linter.unusedSectionVars false
namespace SG
variable {F : Type}

/-! ## Meta data of a tile -/

/-- Where a tile ends. -/
def Box.stop (b : Box) (ds : DataSet) : List Nat := ds.gl ++ List.zipWith (· + ·) b.sm ds.zm ++ [b.sy + ds.zy, b.sx + ds.zx]

def ints (l : List Nat) : List Int := l.map fun n : Nat => (n : Int)

theorem ints_append (l m : List Nat) : ints (l ++ m) = ints l ++ ints m := List.map_append

theorem ints_inj : ∀ {l m : List Nat}, ints l = ints m → l = m
  | [], [], _ => rfl
  | [], _ :: _, h => by cases h
  | _ :: _, [], h => by cases h
  | a :: l, b :: m, h => by
    have h : (a : Int) :: ints l = (b : Int) :: ints m := h
    injection h with h1 h2
    rw [Int.ofNat_inj.1 h1, ints_inj h2]

/-- What `readmeta` makes of the meta file of a tile. -/
def tileMeta (ds : DataSet) (b : Box) (rest : Dict F) : TileMeta F :=
  ⟨ints ds.G, ints (b.start ds), ints (b.stop ds), none, rest⟩

theorem fromEnd_zero {α : Type} (l : List α) (a b : α) : fromEnd (l ++ [a, b]) 0 = .ok b := by
  unfold fromEnd; simp
theorem fromEnd_one {α : Type} (l : List α) (a b : α) : fromEnd (l ++ [a, b]) 1 = .ok a := by
  unfold fromEnd; simp

theorem take_len2 {α : Type} (l : List α) (a b : α) : (l ++ [a, b]).take ((l ++ [a, b]).length - 2) = l := by
  rw [List.length_append]
  show List.take (l.length + 2 - 2) _ = _
  rw [Nat.add_sub_cancel, List.take_left]

theorem toSize_nat (n : Nat) : toSize (n : Int) = .ok n := by
  unfold toSize; rw [if_pos (Int.natCast_nonneg n)]; rfl

theorem mapM_toSize : ∀ l : List Nat, (ints l).mapM toSize = .ok l
  | [] => rfl
  | n :: l => by
    show ((n : Int) :: ints l).mapM toSize = _
    rw [List.mapM_cons, toSize_nat, Py.ok_bind, mapM_toSize l]; rfl

/-! ## Options -/

/-- `rec` as a list, `None` replaced. -/
def recList (rec? : Option Sel) (R : Nat) : List Int := match rec? with
  | none => ints (List.range R)
  | some s => s.list

/-- The window with negative bounds replaced. -/
def winInts (region : Option (Int × Int × Int × Int)) (gx gy : Nat) : Int × Int × Int × Int := match region with
  | none => (0, gx, 0, gy)
  | some (ri0, rie, rj0, rje) =>
    (if ri0 < 0 then ri0 + gx else ri0, if rie < 0 then rie + gx else rie,
     if rj0 < 0 then rj0 + gy else rj0, if rje < 0 then rje + gy else rje)

/-- `w` is the window that the region stands for. -/
def IsWin (region : Option (Int × Int × Int × Int)) (gx gy : Nat) (w : Win) : Prop := match region, w with
  | none, none => True
  | some r, some (ri0, rie, rj0, rje) => winInts (some r) gx gy = ((ri0 : Int), (rie : Int), (rj0 : Int), (rje : Int)) ∧ ri0 ≤ rie ∧ rj0 ≤ rje
  | _, _ => False

theorem IsWin.ok {region : Option (Int × Int × Int × Int)} {gx gy : Nat} {w : Win} (h : IsWin region gx gy w) : w.OK := by
  unfold IsWin at h
  cases region with
  | none => cases w with
    | none => trivial
    | some w => exact h.elim
  | some r => cases w with
    | none => exact h.elim
    | some w => exact h.2

/-- Options of a reading and what they stand for: levels `L`, window `w`, records `K`. -/
structure Reads (args : RdArgs F) (ds : DataSet) (L : List (List Nat)) (w : Win) (K : List Nat) : Prop where
  lev : levAxes (args.lev.map Sel.list) ds.gl = .ok L
  levLen : args.lev.length = ds.gl.length
  levOK : LevOK ds.gl L
  region : IsWin args.region ds.gx ds.gy w
  recs : (recList args.rec? ds.R).map (fun z : Int => if z < 0 then z + (ds.R : Int) else z) = ints K
  recLt : ∀ k ∈ K, k < ds.R

/-- What a dictionary says of precision and number of records. -/
structure Heads (ds : DataSet) (rest : Dict F) : Prop where
  prec : rest.get "dataprec".toList = some [.str ds.prec.text]
  nrec : rest.get "nrecords".toList = some [.int ds.R]

theorem levAxes_lengths : ∀ {levs : List (List Int)} {gl : List Nat} {L : List (List Nat)}, levAxes levs gl = .ok L →
    levs.length = gl.length → L.map List.length = levs.map List.length
  | [], [], L, h, _ => by
    have : L = [] := by injection h with h; exact h.symm
    subst this; rfl
  | l :: levs, g :: gl, L, h, hl => by
    unfold levAxes at h
    obtain ⟨is, h1, h⟩ := bind_ok_inv h
    obtain ⟨rest, h2, h⟩ := bind_ok_inv h
    have : is :: rest = L := by injection h
    subst this
    have key : ∀ {l : List Int} {is : List Nat} {f : Int → Py Nat}, l.mapM f = .ok is → is.length = l.length := by
      intro l
      induction l with
      | nil => intro is f h; injection h with h; rw [← h]; rfl
      | cons a l ih =>
        intro is f h
        rw [List.mapM_cons] at h
        obtain ⟨x, -, h⟩ := bind_ok_inv h
        obtain ⟨xs, h1, h⟩ := bind_ok_inv h
        have : x :: xs = is := by injection h
        rw [← this]
        simp [ih h1]
    rw [List.map_cons, List.map_cons, key h1, levAxes_lengths h2 (by simpa using hl)]

/-- The state that the first meta file makes. -/
def firstState (args : RdArgs F) (ds : DataSet) (L : List (List Nat)) (w : Win) (nit : Nat) (rest : Dict F) : RdState F :=
  ⟨ds.prec, ds.Z, ds.R, recList args.rec? ds.R, winInts args.region ds.gx ds.gy, rest,
    ⟨nit :: (recList args.rec? ds.R).length :: outDims ds L w, fun _ => args.fill⟩⟩

theorem zip_sub {ds : DataSet} {b : Box} (hb : b.OK ds) :
    List.zipWith (fun i0 ie : Int => ie - i0) (ints (b.start ds)) (ints (b.stop ds)) = ints ds.Z := by
  have l1 := hb.mid.length
  have h1 : ∀ gl : List Nat, List.zipWith (fun i0 ie : Int => ie - i0) (ints (List.replicate gl.length 0)) (ints gl) = ints gl := by
    intro gl
    induction gl with
    | nil => rfl
    | cons g gl ih =>
      show ((g : Int) - 0) :: List.zipWith (fun i0 ie : Int => ie - i0) (ints (List.replicate gl.length 0)) (ints gl) = (g : Int) :: ints gl
      rw [ih, Int.sub_zero]
  have h2 : ∀ {G S Z : List Nat}, Fits G S Z →
      List.zipWith (fun i0 ie : Int => ie - i0) (ints S) (ints (List.zipWith (· + ·) S Z)) = ints Z := by
    intro G S Z h
    induction G generalizing S Z with
    | nil => cases S <;> cases Z <;> first | rfl | exact h.elim
    | cons g G ih => cases S with
      | nil => exact h.elim
      | cons s S => cases Z with
        | nil => exact h.elim
        | cons z Z =>
          show (((s + z : Nat) : Int) - (s : Int)) :: List.zipWith (fun i0 ie : Int => ie - i0) (ints S) (ints (List.zipWith (· + ·) S Z)) =
            (z : Int) :: ints Z
          rw [ih h.2]; congr 1; omega
  unfold Box.start Box.stop DataSet.Z
  simp only [ints_append]
  rw [List.zipWith_append (by simp [ints, l1]), List.zipWith_append (by simp [ints]), h1, h2 hb.mid]
  congr 1
  show [((b.sy + ds.zy : Nat) : Int) - (b.sy : Int), ((b.sx + ds.zx : Nat) : Int) - (b.sx : Int)] = [(ds.zy : Int), (ds.zx : Int)]
  congr 1
  · omega
  · congr 1; omega

theorem initState_eq [PyFloat F] {args : RdArgs F} {ds : DataSet} {L : List (List Nat)} {w : Win} {K : List Nat} {b : Box}
    {rest : Dict F} (hr : Reads args ds L w K) (hb : b.OK ds) (hh : Heads ds rest) (nit : Nat) :
    initState args nit (tileMeta ds b rest) = .ok (firstState args ds L w nit rest) := by
  unfold initState tileMeta
  dsimp only
  rw [hh.prec]
  have hp : precOf (F := F) (.str ds.prec.text) = .ok ds.prec := by
    unfold precOf
    cases ds.prec
    · exact if_pos rfl
    · show (if "float64".toList = "float32".toList then _ else _) = _
      rw [if_neg (by decide +kernel)]; exact if_pos rfl
  show (one? [Val.str ds.prec.text] >>= _) = _
  show (Except.ok (Val.str ds.prec.text) >>= _) = _
  rw [Py.ok_bind, hp, Py.ok_bind, zip_sub hb]
  rw [if_neg (by unfold DataSet.Z ints; simp)]
  show ((ints ds.Z).mapM toSize >>= _) = _
  rw [mapM_toSize, Py.ok_bind, hh.nrec]
  show (Except.ok (Val.int ds.R) >>= _) = _
  rw [Py.ok_bind]
  show (toSize (ds.R : Int) >>= _) = _
  rw [toSize_nat, Py.ok_bind]
  have hG : ints ds.G = ints (ds.gl ++ ds.gm) ++ [(ds.gy : Int), (ds.gx : Int)] := by
    unfold DataSet.G; rw [ints_append]; rfl
  rw [hG, fromEnd_zero, Py.ok_bind, fromEnd_one, Py.ok_bind]
  have hlen : args.lev.length + 2 ≤ (ints (ds.gl ++ ds.gm) ++ [(ds.gy : Int), (ds.gx : Int)]).length := by
    rw [hr.levLen]; simp [ints]
  rw [if_neg (fun h => h hlen)]
  rw [take_len2]
  have hmid : (ints (ds.gl ++ ds.gm)).drop args.lev.length = ints ds.gm := by
    rw [hr.levLen, ints_append]
    have : ds.gl.length = (ints ds.gl).length := by simp [ints]
    rw [this, List.drop_left]
  rw [hmid]
  show ((ints ds.gm).mapM toSize >>= _) = _
  rw [mapM_toSize, Py.ok_bind]
  have hL := levAxes_lengths hr.lev (by simpa using hr.levLen)
  rw [List.map_map] at hL
  have hL : L.map List.length = args.lev.map fun l => l.list.length := hL
  have hreg := hr.region
  unfold firstState outDims
  rw [hL]
  unfold IsWin at hreg
  cases hreg' : args.region with
  | none =>
    rw [hreg'] at hreg
    cases w with
    | some w => exact hreg.elim
    | none =>
      show (toSize ((ds.gy : Int) - 0) >>= _) = _
      rw [Int.sub_zero, toSize_nat, Py.ok_bind]
      show (toSize ((ds.gx : Int) - 0) >>= _) = _
      rw [Int.sub_zero, toSize_nat, Py.ok_bind]
      cases args.rec? <;> rfl
  | some r =>
    rw [hreg'] at hreg
    cases w with
    | none => exact hreg.elim
    | some w =>
      obtain ⟨ri0, rie, rj0, rje⟩ := w
      obtain ⟨hw, h1, h2⟩ := hreg
      obtain ⟨a, b, c, e⟩ := r
      show (toSize ((winInts (some (a, b, c, e)) ds.gx ds.gy).2.2.2 - (winInts (some (a, b, c, e)) ds.gx ds.gy).2.2.1) >>= fun ny =>
        toSize ((winInts (some (a, b, c, e)) ds.gx ds.gy).2.1 - (winInts (some (a, b, c, e)) ds.gx ds.gy).1) >>= fun nx => _) = _
      rw [hw]
      show (toSize ((rje : Int) - rj0) >>= fun ny => toSize ((rie : Int) - ri0) >>= fun nx => _) = _
      rw [show (rje : Int) - rj0 = ((rje - rj0 : Nat) : Int) by omega, toSize_nat, Py.ok_bind,
        show (rie : Int) - ri0 = ((rie - ri0 : Nat) : Int) by omega, toSize_nat, Py.ok_bind]
      cases args.rec?
      · show Except.ok (RdState.mk _ _ _ _ (winInts (some (a, b, c, e)) ds.gx ds.gy) _ _) = _
        rw [hw]; rfl
      · show Except.ok (RdState.mk _ _ _ _ (winInts (some (a, b, c, e)) ds.gx ds.gy) _ _) = _
        rw [hw]; rfl

theorem regionOf_eq [PyFloat F] {args : RdArgs F} {ds : DataSet} {L : List (List Nat)} {w : Win} {K : List Nat} {b : Box}
    {rest : Dict F} (hr : Reads args ds L w K) (hb : b.OK ds) :
    regionOf args (winInts args.region ds.gx ds.gy) (tileMeta ds b rest) =
      .ok ((tgts ds b w).map (·.1), (tgts ds b w).map (·.2), srcOf ds b w) := by
  have hreg := hr.region
  unfold IsWin at hreg
  have e1 : ints (b.start ds) = ints (List.replicate ds.gl.length 0 ++ b.sm) ++ [(b.sy : Int), (b.sx : Int)] := by
    unfold Box.start; rw [ints_append]; rfl
  have e2 : ints (b.stop ds) = ints (ds.gl ++ List.zipWith (· + ·) b.sm ds.zm) ++ [((b.sy + ds.zy : Nat) : Int), ((b.sx + ds.zx : Nat) : Int)] := by
    unfold Box.stop; rw [ints_append]; rfl
  have a1 : ∀ gl : List Nat, (gl.map fun g : Nat => ((0 : Int), (g : Int))).map (·.1) = ints (List.replicate gl.length 0) := by
    intro gl
    induction gl with
    | nil => rfl
    | cons g gl ih => rw [List.map_cons, List.map_cons, ih]; rfl
  have a2 : ∀ gl : List Nat, (gl.map fun g : Nat => ((0 : Int), (g : Int))).map (·.2) = ints gl := by
    intro gl
    rw [List.map_map]; rfl
  have a3 : ∀ {G S Z : List Nat}, Fits G S Z →
      (List.zipWith (fun s z : Nat => ((s : Int), ((s + z : Nat) : Int))) S Z).map (·.1) = ints S := by
    intro G S Z h
    induction G generalizing S Z with
    | nil => cases S <;> cases Z <;> first | rfl | exact h.elim
    | cons g G ih => cases S with
      | nil => exact h.elim
      | cons s S => cases Z with
        | nil => exact h.elim
        | cons z Z => rw [List.zipWith_cons_cons, List.map_cons, ih h.2]; rfl
  have a4 : ∀ {G S Z : List Nat}, Fits G S Z →
      (List.zipWith (fun s z : Nat => ((s : Int), ((s + z : Nat) : Int))) S Z).map (·.2) = ints (List.zipWith (· + ·) S Z) := by
    intro G S Z h
    induction G generalizing S Z with
    | nil => cases S <;> cases Z <;> first | rfl | exact h.elim
    | cons g G ih => cases S with
      | nil => exact h.elim
      | cons s S => cases Z with
        | nil => exact h.elim
        | cons z Z => rw [List.zipWith_cons_cons, List.map_cons, ih h.2]; rfl
  have t1 : (tgts ds b w).map (·.1) = ints (List.replicate ds.gl.length 0 ++ b.sm) ++ [(tgtY ds b w).1, (tgtX ds b w).1] := by
    unfold tgts; rw [List.map_append, List.map_append, a1, a3 hb.mid, ints_append]; rfl
  have t2 : (tgts ds b w).map (·.2) = ints (ds.gl ++ List.zipWith (· + ·) b.sm ds.zm) ++ [(tgtY ds b w).2, (tgtX ds b w).2] := by
    unfold tgts; rw [List.map_append, List.map_append, a2, a4 hb.mid, ints_append]; rfl
  unfold regionOf tileMeta
  rw [t1, t2]
  cases hreg' : args.region with
  | none =>
    rw [hreg'] at hreg
    cases w with
    | some w => exact hreg.elim
    | none =>
      show Except.ok (ints (b.start ds), ints (b.stop ds), none) = _
      rw [e1, e2]; rfl
  | some r =>
    rw [hreg'] at hreg
    cases w with
    | none => exact hreg.elim
    | some w =>
      obtain ⟨ri0, rie, rj0, rje⟩ := w
      obtain ⟨hw, h1, h2⟩ := hreg
      rw [hw]
      dsimp only
      rw [if_neg (by simp), e1, e2, fromEnd_zero, Py.ok_bind, fromEnd_zero, Py.ok_bind, fromEnd_one, Py.ok_bind, fromEnd_one, Py.ok_bind,
        take_len2, take_len2]
      rfl

theorem placeOf_eq {ds : DataSet} {b : Box} {L : List (List Nat)} {w : Win} (hb : b.OK ds) (hL : LevOK ds.gl L) (hw : w.OK) :
    placeOf (F := F) (outDims ds L w) ((tgts ds b w).map (·.1)) ((tgts ds b w).map (·.2)) none =
      .ok ⟨(axesOf ds b L w).map (·.T.length), NdArr.pick ((axesOf ds b L w).map (·.T))⟩ := by
  have hz : List.zip ((tgts ds b w).map (·.1)) ((tgts ds b w).map (·.2)) = tgts ds b w := by
    generalize tgts ds b w = l
    induction l with
    | nil => rfl
    | cons a l ih => rw [List.map_cons, List.map_cons, List.zip_cons_cons, ih]
  unfold placeOf
  dsimp only
  rw [hz, if_neg (by rw [tgts_length hb hL]; omega), slices_eq hb hL hw, List.map_map]
  rfl

/-! ## One tile -/

/-- Element `s` of record `r` of a tile with the given data. -/
def tileVal [PyFloat F] [F64 F] [F32 F] (e : Endian) (ds : DataSet) (bs : List Byte) (r : Nat) (s : List Nat) : F :=
  (itemsOf ds.prec e bs).getD (ravel (ds.R :: ds.Z) (r :: s)) Arith.zero

/-- The result after a tile was read into iteration `iit`. -/
def Painted (arr arr' : NdArr F) (iit : Nat) (axs : List Axis) (K : List Nat) (val : Nat → List Nat → F) : Prop :=
  arr'.shape = arr.shape ∧ ∀ (i k : Nat) (q : List Nat) (r : Nat), K[k]? = some r → InShape (axs.map (·.dim)) q →
    arr'.get (i :: k :: q) = if i = iit ∧ InBox axs q then val r (srcIdx axs q) else arr.get (i :: k :: q)

theorem lens_eq {axs : List Axis} (h : ∀ a ∈ axs, a.OK) : (axs.map (·.S)).map List.length = axs.map (·.T.length) := by
  rw [List.map_map]
  apply List.map_congr_left
  intro a ha
  exact (h a ha).len

theorem readAll_mk [PyFloat F] [F64 F] [F32 F] (args : RdArgs F) (p : Prec) (s : List Nat) (n : Nat) (rs : List Int)
    (wi : Int × Int × Int × Int) (ref : Dict F) (arr : NdArr F) (iit : Nat) (pl : Place) (src : Option (Int × Int × Int × Int))
    (bytes : Unit → Py (List Byte)) : readAll args ⟨p, s, n, rs, wi, ref, arr⟩ iit pl src bytes =
      if nonEmptySrc src then (bytes () >>= fun bs =>
        if (itemsOf (F := F) p args.endian bs).length ≠ prodL (n :: s) then .error .valueError
        else sourceAxes args s src >>= fun axes =>
          arr.assign (rs.length :: pl.shape) (fun idx => iit :: idx.take 1 ++ pl.pos (idx.drop 1))
            ((NdArr.ofList Arith.zero (n :: s) (itemsOf p args.endian bs)).select (List.range n :: axes)))
      else .ok arr := rfl

/-- The state that the first meta file makes, with another array. -/
def stateWith (args : RdArgs F) (ds : DataSet) (rest : Dict F) (arr : NdArr F) : RdState F :=
  ⟨ds.prec, ds.Z, ds.R, recList args.rec? ds.R, winInts args.region ds.gx ds.gy, rest, arr⟩

theorem srcIdx_inShape {ds : DataSet} {b : Box} {L : List (List Nat)} {w : Win} (hb : b.OK ds) (hL : LevOK ds.gl L) {q : List Nat}
    (hq : InBox (axesOf ds b L w) q) : InShape ds.Z (srcIdx (axesOf ds b L w) q) := by
  have key : ∀ {axs : List Axis} {q : List Nat}, InBox axs q → InShape (axs.map (·.size)) (srcIdx axs q) := by
    intro axs
    induction axs with
    | nil => intro q h; cases q with
      | nil => trivial
      | cons => exact h.elim
    | cons a axs ih => intro q h; cases q with
      | nil => exact h.elim
      | cons i q =>
        refine ⟨?_, ih h.2⟩
        have := h.1
        unfold Axis.covers at this
        show a.sel i - a.start < a.size
        omega
  have h1 : ∀ {gl : List Nat} {L : List (List Nat)}, LevOK gl L → (List.zipWith levAxis gl L).map (·.size) = gl := by
    intro gl L h
    induction gl generalizing L with
    | nil => cases L with
      | nil => rfl
      | cons => exact h.elim
    | cons g gl ih => cases L with
      | nil => exact h.elim
      | cons l L => rw [List.zipWith_cons_cons, List.map_cons, ih h.2]; rfl
  have h2 : ∀ {G S Z : List Nat}, Fits G S Z → (plains G S Z).map (·.size) = Z := by
    intro G S Z h
    induction G generalizing S Z with
    | nil => cases S <;> cases Z <;> first | rfl | exact h.elim
    | cons g G ih => cases S with
      | nil => exact h.elim
      | cons s S => cases Z with
        | nil => exact h.elim
        | cons z Z => show z :: (plains G S Z).map (·.size) = _; rw [ih h.2]
  have := key hq
  have e : (axesOf ds b L w).map (·.size) = ds.Z := by
    unfold axesOf DataSet.Z
    rw [List.map_append, List.map_append, h1 hL, h2 hb.mid]
    cases w <;> rfl
  rwa [e] at this

theorem readAll_paints [PyFloat F] [F64 F] [F32 F] {args : RdArgs F} {ds : DataSet} {L : List (List Nat)} {w : Win} {K : List Nat} {b : Box}
    (hr : Reads args ds L w K) (hb : b.OK ds) (hrec : args.rec? = none) (rest : Dict F) (arr : NdArr F) (iit : Nat) {bs : List Byte} {bytes : Unit → Py (List Byte)}
    (hbytes : bytes () = .ok bs) (hlen : bs.length = ds.R * prodL ds.Z * ds.prec.size) :
    ∃ arr', readAll args (stateWith args ds rest arr) iit ⟨(axesOf ds b L w).map (·.T.length), NdArr.pick ((axesOf ds b L w).map (·.T))⟩ (srcOf ds b w) bytes = .ok arr' ∧
      Painted arr arr' iit (axesOf ds b L w) K (tileVal args.endian ds bs) := by
  have hw := hr.region.ok
  have hok := axesOf_ok hb hr.levOK hw
  have hK : K = List.range ds.R := by
    have h := hr.recs
    rw [hrec] at h
    have h2 : ints (List.range ds.R) = ints K := by
      rw [← h]
      unfold recList ints
      dsimp only
      rw [List.map_map]
      apply List.map_congr_left
      intro n _
      show (n : Int) = if (n : Int) < 0 then (n : Int) + (ds.R : Int) else (n : Int)
      rw [if_neg (by omega)]
    exact (ints_inj h2).symm
  unfold stateWith
  rw [readAll_mk]
  by_cases hne : nonEmptySrc (srcOf ds b w) = true
  · rw [if_pos hne, hbytes, Py.ok_bind]
    have hitems : (itemsOf (F := F) ds.prec args.endian bs).length = prodL (ds.R :: ds.Z) := by
      rw [itemsOf_length, hlen, Nat.mul_div_cancel _ (size_pos _)]; rfl
    rw [if_neg (fun h => h hitems)]
    rw [source_eq hb hr.levOK hr.lev hr.levLen hne, Py.ok_bind]
    have hrl : (recList args.rec? ds.R).length = ds.R := by rw [hrec]; simp [recList, ints]
    rw [hrl]
    obtain ⟨arr', h1, h2, h3, h4⟩ := NdArr.assign_spec arr (vs := ds.R :: (axesOf ds b L w).map (·.T.length))
      (pos := fun idx => iit :: idx.take 1 ++ NdArr.pick ((axesOf ds b L w).map (·.T)) (idx.drop 1))
      (v := (NdArr.ofList Arith.zero (ds.R :: ds.Z) (itemsOf ds.prec args.endian bs)).select (List.range ds.R :: (axesOf ds b L w).map (·.S)))
      (by
        show (List.range ds.R).length :: ((axesOf ds b L w).map (·.S)).map List.length = _
        rw [lens_eq hok, List.length_range])
      (by
        intro q q' hq hq' he
        match q, q', hq, hq' with
        | k :: t, k' :: t', hq, hq' =>
          have he : iit :: k :: NdArr.pick _ t = iit :: k' :: NdArr.pick _ t' := he
          injection he with _ he
          injection he with e1 e2
          rw [e1, axes_inj hok hq.2 hq'.2 e2])
    refine ⟨arr', h1, h2, ?_⟩
    intro i k q r hk hq
    rw [hK] at hk
    have hkr : k < ds.R ∧ r = k := by
      rcases Nat.lt_or_ge k ds.R with h | h
      · rw [List.getElem?_range h] at hk; injection hk with hk; exact ⟨h, hk.symm⟩
      · rw [List.getElem?_eq_none (by simpa using h)] at hk; cases hk
    obtain ⟨hkr, rfl⟩ := hkr
    by_cases hc : i = iit ∧ InBox (axesOf ds b L w) q
    · rw [if_pos hc]
      obtain ⟨rfl, hin⟩ := hc
      obtain ⟨t, t1, t2, t3⟩ := axes_hit hok hq hin
      have := h3 (r :: t) ⟨hkr, t1⟩
      have this : arr'.get (i :: r :: NdArr.pick ((axesOf ds b L w).map (·.T)) t) = _ := this
      rw [t2] at this
      rw [this]
      show (itemsOf ds.prec args.endian bs).getD (ravel (ds.R :: ds.Z) ((List.range ds.R).getD r 0 :: NdArr.pick _ t)) _ = _
      rw [t3, List.getD_eq_getElem?_getD (l := List.range ds.R), List.getElem?_range hkr]
      rfl
    · rw [if_neg hc]
      apply h4
      intro q' hq' he
      match q', hq' with
      | k' :: t', hq' =>
        have he : iit :: k' :: NdArr.pick _ t' = i :: r :: q := he
        injection he with e0 he
        injection he with e1 e2
        have := (axes_pick hok hq'.2).2
        rw [e2] at this
        exact hc ⟨e0.symm, this⟩
  · rw [if_neg hne]
    refine ⟨arr, rfl, rfl, ?_⟩
    intro i k q r hk hq
    rw [if_neg]
    intro hc
    exact empty_src hb hr.levOK hw (by simpa using hne) q hq hc.2

theorem readRec_paints [PyFloat F] [F64 F] [F32 F] {args : RdArgs F} {ds : DataSet} {L : List (List Nat)} {w : Win} {K : List Nat} {b : Box}
    (hr : Reads args ds L w K) (hb : b.OK ds) (rest : Dict F) (arr0 arr : NdArr F) (iit : Nat) {bs : List Byte}
    (hlen : bs.length = ds.R * prodL ds.Z * ds.prec.size) (z : Int) (j r : Nat) (hz : (if z < 0 then z + (ds.R : Int) else z) = (r : Int))
    (hrlt : r < ds.R) :
    ∃ arr', readRec args (stateWith args ds rest arr0) iit ⟨(axesOf ds b L w).map (·.T.length), NdArr.pick ((axesOf ds b L w).map (·.T))⟩ (srcOf ds b w) bs arr (z, j) =
        .ok arr' ∧ arr'.shape = arr.shape ∧ ∀ (i k : Nat) (q : List Nat), InShape ((axesOf ds b L w).map (·.dim)) q →
      arr'.get (i :: k :: q) = if (i = iit ∧ InBox (axesOf ds b L w) q) ∧ k = j then
        tileVal args.endian ds bs r (srcIdx (axesOf ds b L w) q) else arr.get (i :: k :: q) := by
  have hw := hr.region.ok
  have hok := axesOf_ok hb hr.levOK hw
  unfold readRec
  dsimp only [stateWith]
  rw [hz, if_neg (by omega)]
  by_cases hne : nonEmptySrc (srcOf ds b w) = true
  · rw [if_pos hne]
    have hitems : (itemsOf (F := F) ds.prec args.endian (bs.drop (((r : Int)).toNat * prodL ds.Z * ds.prec.size))) =
        (itemsOf ds.prec args.endian bs).drop (r * prodL ds.Z) := by
      rw [Int.toNat_natCast, itemsOf_drop]
    have hl : (itemsOf (F := F) ds.prec args.endian bs).length = ds.R * prodL ds.Z := by
      rw [itemsOf_length, hlen, Nat.mul_div_cancel _ (size_pos _)]
    have hmul : r * prodL ds.Z + prodL ds.Z ≤ ds.R * prodL ds.Z := by
      have := Nat.mul_le_mul_right (prodL ds.Z) (show r + 1 ≤ ds.R from hrlt)
      rwa [Nat.add_mul, Nat.one_mul] at this
    have hcount : (((itemsOf (F := F) ds.prec args.endian bs).drop (r * prodL ds.Z)).take (prodL ds.Z)).length = prodL ds.Z := by
      rw [List.length_take, List.length_drop, hl]; omega
    rw [hitems, if_neg (fun h => h hcount)]
    rw [source_eq hb hr.levOK hr.lev hr.levLen hne, Py.ok_bind]
    obtain ⟨arr', h1, h2, h3, h4⟩ := NdArr.assign_spec arr (vs := (axesOf ds b L w).map (·.T.length))
      (pos := fun idx => iit :: j :: NdArr.pick ((axesOf ds b L w).map (·.T)) idx)
      (v := (NdArr.ofList Arith.zero ds.Z (((itemsOf ds.prec args.endian bs).drop (r * prodL ds.Z)).take (prodL ds.Z))).select
        ((axesOf ds b L w).map fun a : Axis => a.S))
      (lens_eq hok)
      (by
        intro q q' hq hq' he
        injection he with _ he
        injection he with e1 e2
        exact axes_inj hok hq hq' e2)
    refine ⟨arr', h1, h2, ?_⟩
    intro i k q hq
    by_cases hc : (i = iit ∧ InBox (axesOf ds b L w) q) ∧ k = j
    · rw [if_pos hc]
      obtain ⟨⟨rfl, hin⟩, rfl⟩ := hc
      obtain ⟨t, t1, t2, t3⟩ := axes_hit hok hq hin
      have := h3 t t1
      rw [t2] at this
      rw [this]
      show ((((itemsOf ds.prec args.endian bs).drop (r * prodL ds.Z)).take (prodL ds.Z))).getD (ravel ds.Z (NdArr.pick _ t)) _ = _
      rw [t3]
      unfold tileVal
      show _ = (itemsOf ds.prec args.endian bs).getD (r * prodL ds.Z + ravel ds.Z _) _
      have hin' : InShape ds.Z (srcIdx (axesOf ds b L w) q) := srcIdx_inShape hb hr.levOK hin
      rw [List.getD_eq_getElem?_getD, List.getD_eq_getElem?_getD, List.getElem?_take_of_lt (ravel_lt hin'), List.getElem?_drop]
    · rw [if_neg hc]
      apply h4
      intro q' hq' he
      injection he with e0 he
      injection he with e1 e2
      have := (axes_pick hok hq').2
      rw [e2] at this
      exact hc ⟨⟨e0.symm, this⟩, e1.symm⟩
  · rw [if_neg hne]
    refine ⟨arr, rfl, rfl, ?_⟩
    intro i k q hq
    rw [if_neg]
    intro hc
    exact empty_src hb hr.levOK hw (by simpa using hne) q hq hc.1.2

theorem recs_paint [PyFloat F] [F64 F] [F32 F] {args : RdArgs F} {ds : DataSet} {L : List (List Nat)} {w : Win} {K : List Nat} {b : Box}
    (hr : Reads args ds L w K) (hb : b.OK ds) (rest : Dict F) (arr0 : NdArr F) (iit : Nat) {bs : List Byte}
    (hlen : bs.length = ds.R * prodL ds.Z * ds.prec.size) : ∀ (zs : List Int) (M : List Nat) (arr : NdArr F) (j : Nat),
    zs.map (fun z : Int => if z < 0 then z + (ds.R : Int) else z) = ints M → (∀ k ∈ M, k < ds.R) →
    ∃ arr', (zs.zipIdx j).foldlM (readRec args (stateWith args ds rest arr0) iit
        ⟨(axesOf ds b L w).map (·.T.length), NdArr.pick ((axesOf ds b L w).map (·.T))⟩ (srcOf ds b w) bs) arr = .ok arr' ∧
      arr'.shape = arr.shape ∧ ∀ (i k : Nat) (q : List Nat), InShape ((axesOf ds b L w).map (·.dim)) q →
        (∀ r, j ≤ k → M[k - j]? = some r → arr'.get (i :: k :: q) = if i = iit ∧ InBox (axesOf ds b L w) q then
          tileVal args.endian ds bs r (srcIdx (axesOf ds b L w) q) else arr.get (i :: k :: q)) ∧
        (k < j → arr'.get (i :: k :: q) = arr.get (i :: k :: q))
  | [], M, arr, j, hM, _ => by
    cases M with
    | cons => cases hM
    | nil => exact ⟨arr, rfl, rfl, fun i k q hq => ⟨fun r _ h => by simp at h, fun _ => rfl⟩⟩
  | z :: zs, M, arr, j, hM, hlt => by
    cases M with
    | nil => cases hM
    | cons r0 M =>
      have hM : (if z < 0 then z + (ds.R : Int) else z) :: zs.map (fun z : Int => if z < 0 then z + (ds.R : Int) else z) = (r0 : Int) :: ints M := hM
      injection hM with e1 e2
      obtain ⟨arr1, h1, s1, g1⟩ := readRec_paints hr hb rest arr0 arr iit hlen z j r0 e1 (hlt r0 (by simp))
      obtain ⟨arr2, h2, s2, g2⟩ := recs_paint hr hb rest arr0 iit hlen zs M arr1 (j + 1) e2 (fun k hk => hlt k (by simp [hk]))
      refine ⟨arr2, ?_, s2.trans s1, ?_⟩
      · rw [List.zipIdx_cons, List.foldlM_cons, h1, Py.ok_bind, h2]
      · intro i k q hq
        constructor
        · intro r hjk hkr
          rcases Nat.lt_or_ge k (j + 1) with h | h
          · have : k = j := by omega
            subst this
            rw [Nat.sub_self] at hkr
            have : r0 = r := by injection hkr
            subst this
            rw [(g2 i k q hq).2 h, g1 i k q hq]
            by_cases hc : i = iit ∧ InBox (axesOf ds b L w) q
            · rw [if_pos hc, if_pos ⟨hc, rfl⟩]
            · rw [if_neg hc, if_neg (fun h => hc h.1)]
          · have e : k - j = (k - (j + 1)) + 1 := by omega
            rw [e, List.getElem?_cons_succ] at hkr
            rw [(g2 i k q hq).1 r h hkr, g1 i k q hq, if_neg (fun h' : (i = iit ∧ InBox (axesOf ds b L w) q) ∧ k = j => by omega)]
        · intro hkj
          rw [(g2 i k q hq).2 (by omega), g1 i k q hq, if_neg (fun h' : (i = iit ∧ InBox (axesOf ds b L w) q) ∧ k = j => by omega)]

/-! ## One meta file -/

/-- The data file of a meta file. -/
def dataName (n : Text) : Text := n.take (n.length - 4) ++ "data".toList

/-- A tile: what its meta file says, and its data file. -/
structure TileAt (pf : Text → Py F) (d : MdsDir) (ds : DataSet) (n : Text) (b : Box) (rest : Dict F) : Prop where
  metaIn : n ∈ d.names
  metaData : readmeta pf (d.text n) = .ok (tileMeta ds b rest)
  dataIn : dataName n ∈ d.names
  len : (d.data (dataName n)).length = ds.R * prodL ds.Z * ds.prec.size
  box : b.OK ds
  heads : Heads ds rest

theorem tileStep_some [PyFloat F] [F64 F] [F32 F] {pf : Text → Py F} {d : MdsDir} {args : RdArgs F} {ds : DataSet} {L : List (List Nat)}
    {w : Win} {K : List Nat} (hr : Reads args ds L w K) {n : Text} {b : Box} {rest ref : Dict F} (ht : TileAt pf d ds n b rest)
    (hsame : rest.same ref = true) (nit iit : Nat) (arr : NdArr F) (hs : arr.shape = nit :: K.length :: outDims ds L w) :
    ∃ arr', tileStep pf d args nit iit (some (stateWith args ds ref arr)) n = .ok (some (stateWith args ds ref arr')) ∧
      Painted arr arr' iit (axesOf ds b L w) K (tileVal args.endian ds (d.data (dataName n))) := by
  have hreg : regionOf args (stateWith args ds ref arr).win (tileMeta ds b rest) = _ := regionOf_eq hr ht.box
  have hplace : placeOf (F := F) ((stateWith args ds ref arr).arr.shape.drop 2) ((tgts ds b w).map (·.1)) ((tgts ds b w).map (·.2)) none =
      .ok ⟨(axesOf ds b L w).map (·.T.length), NdArr.pick ((axesOf ds b L w).map (·.T))⟩ := by
    show placeOf (arr.shape.drop 2) _ _ _ = _
    rw [hs]
    exact placeOf_eq ht.box hr.levOK hr.region.ok
  have hdata : d.openData (dataName n) = .ok (d.data (dataName n)) := if_pos ht.dataIn
  have hst : stateFor args nit (some (stateWith args ds ref arr)) (tileMeta ds b rest) = .ok (stateWith args ds ref arr) := if_pos hsame
  unfold tileStep
  rw [show d.openText n = .ok (d.text n) from if_pos ht.metaIn, Py.ok_bind, ht.metaData, Py.ok_bind, hst, Py.ok_bind]
  dsimp only
  rw [hreg, Py.ok_bind]
  dsimp only
  have hm2g : (tileMeta ds b rest).m2g = none := rfl
  rw [hm2g, hplace, Py.ok_bind]
  have hread : ∃ arr', readTile args (stateWith args ds ref arr) iit ⟨(axesOf ds b L w).map (·.T.length),
      NdArr.pick ((axesOf ds b L w).map (·.T))⟩ (srcOf ds b w) (fun _ => d.openData (dataName n)) = .ok arr' ∧
      Painted arr arr' iit (axesOf ds b L w) K (tileVal args.endian ds (d.data (dataName n))) := by
    cases hrec : args.rec? with
    | none =>
      obtain ⟨arr', h1, h2⟩ := readAll_paints hr ht.box hrec ref arr iit (bytes := fun _ => d.openData (dataName n)) hdata ht.len
      refine ⟨arr', ?_, h2⟩
      unfold readTile
      rw [hrec]
      exact h1
    | some sel =>
      obtain ⟨arr', h1, h2, h3⟩ := recs_paint hr ht.box ref arr iit ht.len (recList args.rec? ds.R) K arr 0 hr.recs hr.recLt
      refine ⟨arr', ?_, h2, ?_⟩
      · unfold readTile
        rw [hrec]
        dsimp only
        rw [hdata, Py.ok_bind]
        exact h1
      · intro i k q r hk hq
        exact (h3 i k q hq).1 r (Nat.zero_le _) hk
  obtain ⟨arr', h1, h2⟩ := hread
  refine ⟨arr', ?_, h2⟩
  have h1 : readTile args (stateWith args ds ref arr) iit ⟨(axesOf ds b L w).map (·.T.length),
      NdArr.pick ((axesOf ds b L w).map (·.T))⟩ (srcOf ds b w) (fun _ => d.openData (n.take (n.length - 4) ++ "data".toList)) = .ok arr' := h1
  rw [h1, Py.ok_bind]
  rfl

theorem tileStep_none [PyFloat F] [F64 F] [F32 F] {pf : Text → Py F} {d : MdsDir} {args : RdArgs F} {ds : DataSet} {L : List (List Nat)}
    {w : Win} {K : List Nat} (hr : Reads args ds L w K) {n : Text} {b : Box} {rest : Dict F} (ht : TileAt pf d ds n b rest)
    (hsame : rest.same rest = true) (nit iit : Nat) :
    tileStep pf d args nit iit none n =
      tileStep pf d args nit iit (some (stateWith args ds rest ⟨nit :: K.length :: outDims ds L w, fun _ => args.fill⟩)) n := by
  have hK : (recList args.rec? ds.R).length = K.length := by
    have := congrArg List.length hr.recs
    simpa [ints] using this
  have h1 : stateFor args nit none (tileMeta ds b rest) =
      stateFor args nit (some (stateWith args ds rest ⟨nit :: K.length :: outDims ds L w, fun _ => args.fill⟩)) (tileMeta ds b rest) := by
    show initState args nit _ = if rest.same rest then _ else _
    rw [initState_eq hr ht.box ht.heads, if_pos hsame]
    unfold firstState stateWith
    rw [hK]
  unfold tileStep
  simp only [show d.openText n = .ok (d.text n) from if_pos ht.metaIn, Py.ok_bind, ht.metaData, h1]

/-! ## All meta files -/

/-- A position of the result after the tiles `ts` were read into its iteration. -/
def paint [PyFloat F] [F64 F] [F32 F] (d : MdsDir) (args : RdArgs F) (ds : DataSet) (L : List (List Nat)) (w : Win) (r : Nat) (q : List Nat)
    (ts : List (Text × Box)) (x : F) : F :=
  ts.foldl (fun x t => if InBox (axesOf ds t.2 L w) q then
    tileVal args.endian ds (d.data (dataName t.1)) r (srcIdx (axesOf ds t.2 L w) q) else x) x

theorem tiles_fold [PyFloat F] [F64 F] [F32 F] {pf : Text → Py F} {d : MdsDir} {args : RdArgs F} {ds : DataSet} {L : List (List Nat)}
    {w : Win} {K : List Nat} (hr : Reads args ds L w K) {ref : Dict F} {rest : Text → Dict F} (nit iit : Nat) :
    ∀ (ts : List (Text × Box)), (∀ t ∈ ts, TileAt pf d ds t.1 t.2 (rest t.1) ∧ (rest t.1).same ref = true) → ∀ (arr : NdArr F),
    arr.shape = nit :: K.length :: outDims ds L w →
    ∃ arr', (ts.map (·.1)).foldlM (tileStep pf d args nit iit) (some (stateWith args ds ref arr)) = .ok (some (stateWith args ds ref arr')) ∧
      arr'.shape = arr.shape ∧ ∀ (i k : Nat) (q : List Nat) (r : Nat), K[k]? = some r → InShape (outDims ds L w) q →
        arr'.get (i :: k :: q) = if i = iit then paint d args ds L w r q ts (arr.get (i :: k :: q)) else arr.get (i :: k :: q)
  | [], _, arr, _ => ⟨arr, rfl, rfl, fun i k q r _ _ => by split <;> rfl⟩
  | t :: ts, hts, arr, hs => by
    obtain ⟨ht, hsame⟩ := hts t (by simp)
    obtain ⟨arr1, h1, s1, g1⟩ := tileStep_some hr ht hsame nit iit arr hs
    obtain ⟨arr2, h2, s2, g2⟩ := tiles_fold hr nit iit ts (fun t ht => hts t (by simp [ht])) arr1 (s1.trans hs)
    refine ⟨arr2, ?_, s2.trans s1, ?_⟩
    · rw [List.map_cons, List.foldlM_cons, h1, Py.ok_bind, h2]
    · intro i k q r hk hq
      rw [g2 i k q r hk hq, g1 i k q r hk (by rw [axesOf_dim ht.box hr.levOK]; exact hq)]
      by_cases hi : i = iit
      · rw [if_pos hi, if_pos hi]
        show paint d args ds L w r q ts _ = paint d args ds L w r q ts _
        congr 1
        by_cases hc : InBox (axesOf ds t.2 L w) q
        · rw [if_pos ⟨hi, hc⟩]; exact (if_pos hc).symm
        · rw [if_neg (fun h => hc h.2)]; exact (if_neg hc).symm
      · rw [if_neg hi, if_neg hi, if_neg (fun h => hi h.1)]

/-- The tiles of an iteration. -/
def nameOf (fname : Text) : Option Nat → Text
  | none => fname
  | some n => fname ++ itrText n

theorem itrs_fold [PyFloat F] [F64 F] [F32 F] {pf : Text → Py F} {d : MdsDir} {fname : Text} {args : RdArgs F} {ds : DataSet}
    {L : List (List Nat)} {w : Win} {K : List Nat} (hr : Reads args ds L w K) {ref : Dict F} {rest : Text → Dict F} {box : Text → Box} (nit : Nat) :
    ∀ (its : List (Option Nat)) (j : Nat), (∀ it ∈ its, d.metafiles (nameOf fname it) ≠ [] ∧ ∀ n ∈ d.metafiles (nameOf fname it),
      TileAt pf d ds n (box n) (rest n) ∧ (rest n).same ref = true) → ∀ (arr : NdArr F),
    arr.shape = nit :: K.length :: outDims ds L w →
    ∃ arr', (its.zipIdx j).foldlM (itrStep pf d fname args nit) (some (stateWith args ds ref arr)) = .ok (some (stateWith args ds ref arr')) ∧
      arr'.shape = arr.shape ∧ ∀ (i k : Nat) (q : List Nat) (r : Nat), K[k]? = some r → InShape (outDims ds L w) q →
        (∀ it, j ≤ i → its[i - j]? = some it → arr'.get (i :: k :: q) =
          paint d args ds L w r q ((d.metafiles (nameOf fname it)).map fun n => (n, box n)) (arr.get (i :: k :: q))) ∧
        (i < j → arr'.get (i :: k :: q) = arr.get (i :: k :: q))
  | [], j, _, arr, _ => ⟨arr, rfl, rfl, fun i k q r _ _ => ⟨fun it _ h => by simp at h, fun _ => rfl⟩⟩
  | it :: its, j, hts, arr, hs => by
    obtain ⟨hne, htiles⟩ := hts it (by simp)
    obtain ⟨arr1, h1, s1, g1⟩ := tiles_fold (d := d) hr nit j ((d.metafiles (nameOf fname it)).map fun n => (n, box n)) (rest := rest) (ref := ref)
      (by
        intro t ht
        obtain ⟨n, hn, rfl⟩ := List.mem_map.1 ht
        exact htiles n hn) arr hs
    obtain ⟨arr2, h2, s2, g2⟩ := itrs_fold hr nit its (j + 1) (fun t ht => hts t (by simp [ht])) arr1 (s1.trans hs)
    refine ⟨arr2, ?_, s2.trans s1, ?_⟩
    · rw [List.zipIdx_cons, List.foldlM_cons]
      have : itrStep pf d fname args nit (some (stateWith args ds ref arr)) (it, j) = .ok (some (stateWith args ds ref arr1)) := by
        rw [← h1, List.map_map]
        have e : (d.metafiles (nameOf fname it)).map ((·.1) ∘ fun n => (n, box n)) = d.metafiles (nameOf fname it) := by
          show List.map (fun n => n) _ = _
          exact List.map_id' _
        rw [e]
        unfold itrStep
        show (match d.metafiles (nameOf fname it) with
          | [] => Except.error PyErr.ioError
          | files => files.foldlM (tileStep pf d args nit j) (some (stateWith args ds ref arr))) = _
        revert hne
        cases d.metafiles (nameOf fname it) with
        | nil => exact fun h => absurd rfl h
        | cons a l => exact fun _ => rfl
      rw [this, Py.ok_bind, h2]
    · intro i k q r hk hq
      constructor
      · intro it' hji hi
        rcases Nat.lt_or_ge i (j + 1) with h | h
        · have : i = j := by omega
          subst this
          rw [Nat.sub_self] at hi
          have : it = it' := by injection hi
          subst this
          rw [(g2 i k q r hk hq).2 h, g1 i k q r hk hq, if_pos rfl]
        · have e : i - j = (i - (j + 1)) + 1 := by omega
          rw [e, List.getElem?_cons_succ] at hi
          rw [(g2 i k q r hk hq).1 it' h hi, g1 i k q r hk hq, if_neg (by omega)]
      · intro hij
        rw [(g2 i k q r hk hq).2 (by omega), g1 i k q r hk hq, if_neg (by omega)]

theorem outDims_drop {ds : DataSet} {L : List (List Nat)} {w : Win} {m : Nat} (h : m = L.length) :
    (outDims ds L w).drop m = ds.gm ++ lastDims ds.gy ds.gx w := by
  unfold outDims
  rw [List.append_assoc, h, ← List.length_map (f := List.length) (as := L), List.drop_left]

/-- What `rdmds` returns. -/
theorem rdmds_eq [PyFloat F] [F64 F] [F32 F] {pf : Text → Py F} {d : MdsDir} {fname : Text} {args : RdArgs F} {ds : DataSet}
    {L : List (List Nat)} {w : Win} {K : List Nat} (hr : Reads args ds L w K) {rest : Text → Dict F} {box : Text → Box}
    (hitrs : itrsOf d fname args.itrs ≠ [])
    (hts : ∀ it ∈ itrsOf d fname args.itrs, d.metafiles (nameOf fname it) ≠ [] ∧ ∀ n ∈ d.metafiles (nameOf fname it),
      TileAt pf d ds n (box n) (rest n))
    (hsame : ∀ it ∈ itrsOf d fname args.itrs, ∀ n ∈ d.metafiles (nameOf fname it), ∀ it' ∈ itrsOf d fname args.itrs,
      ∀ n' ∈ d.metafiles (nameOf fname it'), (rest n).same (rest n') = true) :
    ∃ arr : NdArr F, arr.shape = (itrsOf d fname args.itrs).length :: K.length :: outDims ds L w ∧
      (∀ (i k : Nat) (q : List Nat) (it : Option Nat) (r : Nat), (itrsOf d fname args.itrs)[i]? = some it → K[k]? = some r →
        InShape (outDims ds L w) q → arr.get (i :: k :: q) =
          paint d args ds L w r q ((d.metafiles (nameOf fname it)).map fun n => (n, box n)) args.fill) ∧
      rdmds pf d fname args = arr.reshape Arith.zero
        (squeezed args ((itrsOf d fname args.itrs).length :: K.length :: L.map List.length) ++ (outDims ds L w).drop L.length) := by
  have hK : (recList args.rec? ds.R).length = K.length := by
    have := congrArg List.length hr.recs
    simpa [ints] using this
  have hL := levAxes_lengths hr.lev (by simpa using hr.levLen)
  rw [List.map_map] at hL
  have hL : L.map List.length = args.lev.map fun l => l.list.length := hL
  have hLl : args.lev.length = L.length := by
    have := congrArg List.length hL
    simpa using this.symm
  have key : ∃ (ref : Dict F) (arr : NdArr F), arr.shape = (itrsOf d fname args.itrs).length :: K.length :: outDims ds L w ∧
      (∀ (i k : Nat) (q : List Nat) (it : Option Nat) (r : Nat), (itrsOf d fname args.itrs)[i]? = some it → K[k]? = some r →
        InShape (outDims ds L w) q → arr.get (i :: k :: q) =
          paint d args ds L w r q ((d.metafiles (nameOf fname it)).map fun n => (n, box n)) args.fill) ∧
      (itrsOf d fname args.itrs).zipIdx.foldlM (itrStep pf d fname args (itrsOf d fname args.itrs).length) none =
        .ok (some (stateWith args ds ref arr)) := by
    generalize hN : (itrsOf d fname args.itrs).length = N
    revert hts hsame hN
    match hI : itrsOf d fname args.itrs with
    | [] => exact absurd hI hitrs
    | it :: its =>
      intro hts hsame hN
      obtain ⟨hne, ht⟩ := hts it (by simp)
      have hF : ∃ n ns, d.metafiles (nameOf fname it) = n :: ns := by
        cases hm : d.metafiles (nameOf fname it) with
        | nil => exact absurd hm hne
        | cons n ns => exact ⟨n, ns, rfl⟩
      obtain ⟨n, ns, hm⟩ := hF
      have hn : n ∈ d.metafiles (nameOf fname it) := by rw [hm]; simp
      obtain ⟨arr, h1, h2, h3⟩ := itrs_fold (ref := rest n) hr (rest := rest) (box := box) N (it :: its) 0
        (fun it' hit' => ⟨(hts it' hit').1, fun n' hn' => ⟨(hts it' hit').2 n' hn', hsame it' hit' n' hn' it (by simp) n hn⟩⟩)
        ⟨N :: K.length :: outDims ds L w, fun _ => args.fill⟩ rfl
      refine ⟨rest n, arr, h2, ?_, ?_⟩
      · intro i k q it' r hi hk hq
        exact (h3 i k q r hk hq).1 it' (Nat.zero_le _) hi
      · rw [← h1, List.zipIdx_cons, List.foldlM_cons, List.foldlM_cons]
        congr 1
        unfold itrStep
        show (match d.metafiles (nameOf fname it) with
          | [] => Except.error PyErr.ioError
          | files => files.foldlM (tileStep pf d args N 0) none) = (match d.metafiles (nameOf fname it) with
          | [] => Except.error PyErr.ioError
          | files => files.foldlM (tileStep pf d args N 0) (some (stateWith args ds (rest n) ⟨N :: K.length :: outDims ds L w, fun _ => args.fill⟩)))
        rw [hm]
        show (n :: ns).foldlM _ _ = (n :: ns).foldlM _ _
        rw [List.foldlM_cons, List.foldlM_cons, tileStep_none hr (ht n hn) (hsame it (by simp) n hn it (by simp) n hn)]
  obtain ⟨ref, arr, h1, h2, h3⟩ := key
  refine ⟨arr, h1, h2, ?_⟩
  unfold rdmds
  dsimp only
  rw [h3, Py.ok_bind]
  show arr.reshape Arith.zero (squeezed args ((itrsOf d fname args.itrs).length :: (recList args.rec? ds.R).length :: args.lev.map fun l => l.list.length) ++
    arr.shape.drop (2 + args.lev.length)) = _
  rw [hK, ← hL, h1, hLl, Nat.add_comm 2]
  rfl

end SG
