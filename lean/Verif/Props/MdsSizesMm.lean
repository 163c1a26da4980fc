import Verif.Props.MdsSizes
import Verif.Props.MdsMemmap
/-! # C141: tiles of different sizes read through a memory map -/

set_option linter.unusedSectionVars false
namespace SG
variable {F : Type} [PyFloat F]

theorem reads_rows_all {args : RdArgs F} (hrec : args.rec? = none) (hlev : args.lev = []) (hreg : args.region = none) {p : Prec}
    {R k nx zy : Nat} : Reads args (Spec.rows p R k nx zy) [] none (List.range R) where
  lev := by rw [hlev]; rfl
  levLen := by rw [hlev]; rfl
  levOK := trivial
  region := by rw [hreg]; trivial
  recs := by
    rw [hrec]
    show (ints (List.range R)).map _ = ints (List.range R)
    unfold ints
    rw [List.map_map]
    apply List.map_congr_left
    intro z _
    show (if (z : Int) < 0 then (z : Int) + (R : Int) else (z : Int)) = (z : Int)
    rw [if_neg (by omega)]
  recLt := by
    intro j hj
    exact List.mem_range.1 hj

/-- The second tile. -/
theorem tileStepMm_rows [F64 F] [F32 F] {pf : Text → Py F} {d : MdsDir} {args : RdArgs F} {p : Prec} {R k nx : Nat} (hrec : args.rec? = none)
    (hlev : args.lev = []) (hreg : args.region = none) (hR : 0 < R) (hx0 : 0 < nx) (hk : 0 < k) {n : Text} {rest ref : Dict F}
    (ht : TileAt pf d (Spec.rows p R k nx k) n ⟨[], 1, 0⟩ rest) (hsame : rest.same ref = true) {arr : NdArr F} (hs : arr.shape = [1, R, 1 + k, nx]) :
    ∃ arr', tileStepMm pf args 1 0 d (some (stateWith args (Spec.rows p R k nx 1) ref arr)) n =
        (d, .ok (some (stateWith args (Spec.rows p R k nx 1) ref arr'))) ∧
      arr'.shape = arr.shape ∧ (∀ r x, arr'.get [0, r, 0, x] = arr.get [0, r, 0, x]) ∧
      ∀ r y x, r < R → y < k → x < nx → arr'.get [0, r, 1 + y, x] = (itemsOf p args.endian (d.data (dataName n))).getD (r * nx + x) Arith.zero := by
  have hrd := reads_rows_all (F := F) hrec hlev hreg (p := p) (R := R) (k := k) (nx := nx) (zy := k)
  have hreg' : regionOf args (stateWith args (Spec.rows p R k nx 1) ref arr).win (tileMeta (Spec.rows p R k nx k) ⟨[], 1, 0⟩ rest) = _ := regionOf_eq hrd ht.box
  have hplace : placeOf (F := F) ((stateWith args (Spec.rows p R k nx 1) ref arr).arr.shape.drop 2) ((tgts (Spec.rows p R k nx k) ⟨[], 1, 0⟩ none).map (·.1))
      ((tgts (Spec.rows p R k nx k) ⟨[], 1, 0⟩ none).map (·.2)) none =
      .ok ⟨[k, nx], NdArr.pick [List.range' 1 k, List.range' 0 nx]⟩ := by
    show placeOf (arr.shape.drop 2) _ _ _ = _
    rw [hs]
    have := placeOf_eq (F := F) (w := none) ht.box hrd.levOK trivial
    refine this.trans ?_
    rw [axes_size rfl ht.box]
    rfl
  have hst : stateFor args 1 (some (stateWith args (Spec.rows p R k nx 1) ref arr)) (tileMeta (Spec.rows p R k nx k) ⟨[], 1, 0⟩ rest) =
    .ok (stateWith args (Spec.rows p R k nx 1) ref arr) := if_pos hsame
  have hhead : tileHead pf d args 1 (some (stateWith args (Spec.rows p R k nx 1) ref arr)) n =
      .ok (stateWith args (Spec.rows p R k nx 1) ref arr, ⟨[k, nx], NdArr.pick [List.range' 1 k, List.range' 0 nx]⟩, none, dataName n) := by
    unfold tileHead
    rw [show d.openText n = .ok (d.text n) from if_pos ht.metaIn, Py.ok_bind, ht.metaData, Py.ok_bind, hst, Py.ok_bind, hreg', Py.ok_bind]
    dsimp only
    rw [show (tileMeta (Spec.rows p R k nx k) ⟨[], 1, 0⟩ rest).m2g = none from rfl, hplace, Py.ok_bind]
    rfl
  have hl : (d.data (dataName n)).length = R * (k * nx) * p.size := by
    rw [ht.len]
    show R * (k * (nx * 1)) * p.size = _
    rw [Nat.mul_one]
  have hle : R * nx ≤ R * (k * nx) := Nat.mul_le_mul_left _ (Nat.le_mul_of_pos_left _ hk)
  have hle' : R * nx * p.size ≤ (d.data (dataName n)).length := by rw [hl]; exact Nat.mul_le_mul_right _ hle
  have hpos : 0 < R * nx * p.size := Nat.mul_pos (Nat.mul_pos hR hx0) (size_pos p)
  have hneed : prodL ((stateWith args (Spec.rows p R k nx 1) ref arr).nrecords :: (stateWith args (Spec.rows p R k nx 1) ref arr).recshape) *
      (stateWith args (Spec.rows p R k nx 1) ref arr).prec.size = R * nx * p.size := by
    show R * (1 * (nx * 1)) * p.size = _
    rw [Nat.one_mul, Nat.mul_one]
  obtain ⟨d', hm⟩ := memmap_works (R * nx * p.size) ht.dataIn (show d.data (dataName n) ≠ [] by
    intro h
    rw [h] at hle'
    exact absurd (Nat.lt_of_lt_of_le hpos hle') (Nat.lt_irrefl 0))
  have hdd : d' = d := (memmap_ok hm).2.2 hle'
  subst hdd
  rw [Nat.sub_eq_zero_of_le hle', List.replicate_zero, List.append_nil] at hm
  have hitem : ∀ i, i < R * nx → (itemsOf (F := F) p args.endian ((d'.data (dataName n)).take (R * nx * p.size))).getD i Arith.zero =
      (itemsOf p args.endian (d'.data (dataName n))).getD i Arith.zero := by
    intro i hi
    rw [List.getD_eq_getElem?_getD, List.getD_eq_getElem?_getD,
      itemsOf_same p args.endian (bs := (d'.data (dataName n)).take (R * nx * p.size)) (bs' := d'.data (dataName n)) (L := R * nx * p.size)
        (by rw [List.take_take, Nat.min_self]) (by rw [List.length_take]; omega) hle' (Nat.mul_le_mul_right _ hi)]
  generalize (d'.data (dataName n)).take (R * nx * p.size) = bs at hm hitem
  obtain ⟨b1, b2, b3⟩ := NdArr.foldl_set (fun idx => 0 :: idx.take 1 ++ NdArr.pick [List.range' 1 k, List.range' 0 nx] (idx.drop 1))
    ((NdArr.ofList (Arith.zero : F) [R, 1, nx] (itemsOf p args.endian bs)).select [List.range R, List.range 1, List.range nx]).bget
    (indices [R, k, nx]) arr (by
      intro q hq q' hq' he
      have hq := mem_indices.1 hq
      have hq' := mem_indices.1 hq'
      match q, q', hq, hq' with
      | [r, y, x], [r', y', x'], ⟨_, hy, hx, _⟩, ⟨_, hy', hx', _⟩ =>
        have he : 0 :: r :: NdArr.pick [List.range' 1 k, List.range' 0 nx] [y, x] = 0 :: r' :: NdArr.pick [List.range' 1 k, List.range' 0 nx] [y', x'] := he
        rw [pick_rows hy hx, pick_rows hy' hx'] at he
        injection he with _ he
        injection he with e0 he
        injection he with e1 he
        injection he with e2 _
        rw [e0, show y = y' by omega, e2])
  generalize hout : List.foldl _ arr (indices [R, k, nx]) = out at b1 b2 b3
  have hassign : assignMapped args (stateWith args (Spec.rows p R k nx 1) ref arr) 0 ⟨[k, nx], NdArr.pick [List.range' 1 k, List.range' 0 nx]⟩ none bs =
      .ok out := by
    unfold assignMapped recAxis
    rw [hrec]
    dsimp only
    rw [Py.ok_bind]
    rw [show sourceAxes args (stateWith args (Spec.rows p R k nx 1) ref arr).recshape none = .ok ([1, nx].map List.range) from levAxes_all hlev _, Py.ok_bind]
    have hrl : (stateWith args (Spec.rows p R k nx 1) ref arr).recs.length = R := by
      show (recList args.rec? R).length = R
      rw [hrec]
      simp [recList, ints]
    rw [hrl]
    unfold NdArr.assign
    rw [if_pos (by
      show NdArr.castable [(List.range R).length, (List.range 1).length, (List.range nx).length] [R, k, nx] = true
      rw [List.length_range, List.length_range, List.length_range]
      simp [NdArr.castable])]
    rw [← hout]
    rfl
  refine ⟨out, ?_, b1, fun r x => ?_, fun r y x hr hy hx => ?_⟩
  · unfold tileStepMm
    rw [hhead]
    dsimp only
    rw [if_pos (show nonEmptySrc none = true from rfl), hneed, hm]
    dsimp only
    rw [Py.ok_bind, hassign]
    rfl
  · apply b3
    intro q hq he
    have hq := mem_indices.1 hq
    match q, hq with
    | [r', y, x'], ⟨_, hy, hx, _⟩ =>
      have he : 0 :: r' :: NdArr.pick [List.range' 1 k, List.range' 0 nx] [y, x'] = [0, r, 0, x] := he
      rw [pick_rows hy hx] at he
      injection he with _ he
      injection he with _ he
      injection he with e1 he
      omega
  · have := b2 [r, y, x] (mem_indices.2 ⟨hr, hy, hx, trivial⟩)
    have this : out.get (0 :: r :: NdArr.pick [List.range' 1 k, List.range' 0 nx] [y, x]) = _ := this
    rw [pick_rows hy hx] at this
    rw [this]
    have hlt : r * nx + x < R * nx := by
      have h1 : (r + 1) * nx ≤ R * nx := Nat.mul_le_mul_right _ hr
      rw [Nat.add_mul, Nat.one_mul] at h1
      omega
    rw [← hitem _ hlt]
    generalize (itemsOf p args.endian bs : List F) = l
    show l.getD (ravel [R, 1, nx] (NdArr.pick [List.range R, List.range 1, List.range nx]
      [if (List.range R).length = 1 then 0 else r, 0, if (List.range nx).length = 1 then 0 else x])) Arith.zero = _
    have e : (if (List.range nx).length = 1 then 0 else x) = x := by
      rw [List.length_range]
      split <;> omega
    have e' : (if (List.range R).length = 1 then 0 else r) = r := by
      rw [List.length_range]
      split <;> omega
    rw [e, e']
    show l.getD (ravel [R, 1, nx] [(List.range R).getD r 0, (List.range 1).getD 0 0, (List.range nx).getD x 0]) Arith.zero = _
    rw [List.getD_eq_getElem?_getD (l := List.range nx), List.getElem?_range hx, List.getD_eq_getElem?_getD (l := List.range R), List.getElem?_range hr]
    show l.getD (r * (1 * (nx * 1)) + (0 * (nx * 1) + (x * 1 + 0))) Arith.zero = _
    congr 1
    rw [Nat.one_mul, Nat.mul_one]
    omega

/-- **C141**: the same two tiles read through a memory map: even without selecting a record there is no error, and the second tile is read in pieces of
one row, each repeated `k` times. -/
theorem C141_mapped_repeated [F64 F] [F32 F] [LawfulF64 F] (pf : Text → Py F) (d : MdsDir) (fname : Text) (e : Endian) (fill : F) (hd : d.names.Nodup)
    (hdata : Spec.NoEmptyData d) (p : Prec) (R k nx : Nat) (hk : 0 < k) (hR : 1 < R) (hx0 : 0 < nx) (common : Text → Option (List (Val F)))
    (hc : Spec.Common (Spec.rows p R k nx 1) common)
    (n1 n2 : Text) (t1 t2 : Spec.MdsTile F) (hfound : ∀ n, Spec.Found d fname n ↔ n = n1 ∨ n = n2) (horder : [n1, n2].Sublist d.names)
    (hb1 : t1.box = ⟨[], 0, 0⟩) (hb2 : t2.box = ⟨[], 1, 0⟩) (h1 : Spec.TileFile pf d e (Spec.rows p R k nx 1) common n1 t1)
    (h2 : Spec.TileFile pf d e (Spec.rows p R k nx k) common n2 t2) :
    ∃ a, rdmdsMm pf d fname { endian := e, fill := fill } = (d, .ok a) ∧ a.shape = [R, 1 + k, nx] ∧
      (∀ r x, r < R → x < nx → a.get [r, 0, x] = Spec.rounded p (t1.elem [r, 0, x])) ∧
      ∀ r y x, r < R → y < k → x < nx → a.get [r, 1 + y, x] = Spec.rounded p (t2.elem [r / k, r % k, x]) := by
  have at1 := (tileAt_of hc h1).1
  have at2 := (tileAt_of (common_of hc rows_same) h2).1
  rw [hb1] at at1
  rw [hb2] at at2
  have hfiles := metafiles_pair hd hfound horder
  have hpre : fname <+: n1 := found_prefix (it := none) (show n1 ∈ d.metafiles fname by rw [hfiles]; simp)
  have hrd := reads_rows_all (F := F) (args := { endian := e, fill := fill }) rfl rfl rfl (p := p) (R := R) (k := k) (nx := nx) (zy := 1)
  obtain ⟨a1, s1, p1, p2⟩ := tileStep_some hrd at1 (restOf_same hc h1 h1) 1 0 ⟨1 :: (List.range R).length :: outDims (Spec.rows p R k nx 1) [] none, fun _ => fill⟩ rfl
  rw [← tileStep_none hrd at1 (restOf_same hc h1 h1) 1 0] at s1
  obtain ⟨-, d', m1, -, hdd⟩ := tile_mm hdata hpre (fun s hs => by cases hs) ⟨ZeroExtended.refl d, fun _ => rfl⟩ (fun x hx => by cases hx) s1
  have hdd := hdd rfl
  subst hdd
  have p1 : a1.shape = [1, R, 1 + k, nx] := by
    rw [p1]
    show [1, (List.range R).length, 1 + k, nx] = _
    rw [List.length_range]
  obtain ⟨a2, s2, q1, q2, q3⟩ := tileStepMm_rows (args := { endian := e, fill := fill }) rfl rfl rfl (Nat.lt_of_succ_lt hR) hx0 hk at2
    (restOf_same hc h2 h1) p1
  have hsh : a2.shape = [1, R, 1 + k, nx] := q1.trans p1
  have hrun : rdmdsMm pf d' fname { endian := e, fill := fill } = (d', a2.reshape Arith.zero [R, 1 + k, nx]) := by
    unfold rdmdsMm
    have hstep : dirFold (itrStepMm pf fname ({ endian := e, fill := fill } : RdArgs F) 1) d' none [(none, 0)] =
        (d', .ok (some (stateWith { endian := e, fill := fill } (Spec.rows p R k nx 1) (restOf pf d' n1) a2))) := by
      unfold dirFold
      rw [itrStepMm_name, show nameOf fname none = fname from rfl, hfiles, if_neg (by simp)]
      unfold dirFold
      rw [m1]
      dsimp only
      unfold dirFold
      rw [s2]
      dsimp only
      unfold dirFold
      rfl
    have hstep : dirFold (itrStepMm pf fname ({ endian := e, fill := fill } : RdArgs F) (itrsOf d' fname ({ endian := e, fill := fill } : RdArgs F).itrs).length) d' none
        (itrsOf d' fname ({ endian := e, fill := fill } : RdArgs F).itrs).zipIdx = _ := hstep
    dsimp only at hstep ⊢
    rw [hstep]
    dsimp only
    rw [Py.ok_bind]
    have hrl : (stateWith ({ endian := e, fill := fill } : RdArgs F) (Spec.rows p R k nx 1) (restOf pf d' n1) a2).recs.length = R := by
      show (ints (List.range R)).length = R
      simp [ints]
    unfold finishRd
    dsimp only
    rw [hrl]
    show (d', a2.reshape Arith.zero ([1, R].filter (1 < ·) ++ a2.shape.drop 2)) = _
    rw [hsh, show [1, R].filter (1 < ·) = [R] by simp [hR]]
    rfl
  have hget : ∀ r y x, r < R → y < 1 + k → x < nx → (NdArr.ofList (Arith.zero : F) [R, 1 + k, nx] a2.toList).get [r, y, x] = a2.get [0, r, y, x] := by
    intro r y x hr hy hx
    apply NdArr.ofList_get
    have := NdArr.toList_get a2 (idx := [0, r, y, x]) (by rw [hsh]; exact ⟨by omega, hr, hy, hx, trivial⟩)
    rw [← this, hsh]
    congr 1
    show _ = 0 * _ + _
    rw [Nat.zero_mul, Nat.zero_add]
  refine ⟨NdArr.ofList Arith.zero [R, 1 + k, nx] a2.toList, ?_, rfl, fun r x hr hx => ?_, fun r y x hr hy hx => ?_⟩
  · rw [hrun]
    unfold NdArr.reshape
    rw [if_pos (by rw [hsh]; show R * _ = 1 * (R * _); rw [Nat.one_mul])]
  · rw [hget r 0 x hr (by omega) hx, q2]
    have hbox : InBox (axesOf (Spec.rows p R k nx 1) ⟨[], 0, 0⟩ [] none) [0, x] := by
      refine ⟨⟨Nat.zero_le _, ?_⟩, ⟨Nat.zero_le _, ?_⟩, trivial⟩
      · show 0 < 0 + 1; omega
      · show x < 0 + nx; omega
    rw [p2 0 r [0, x] r (List.getElem?_range hr) ⟨by show 0 < 1 + k; omega, hx, trivial⟩, if_pos ⟨rfl, hbox⟩]
    exact tileVal_eq h1 hr (show InShape [1, nx] [0, x - 0] from ⟨by omega, by omega, trivial⟩)
  · rw [hget r (1 + y) x hr (by omega) hx, q3 r y x hr hy hx]
    have hin : InShape (Spec.rows p R k nx k).Z [r % k, x] := ⟨Nat.mod_lt _ hk, hx, trivial⟩
    have := tileVal_eq h2 (r := r / k) (s := [r % k, x]) (Nat.lt_of_le_of_lt (Nat.div_le_self _ _) hr) hin
    refine Eq.trans ?_ this
    unfold tileVal
    show _ = (itemsOf p e (d'.data (dataName n2))).getD _ Arith.zero
    congr 1
    show r * nx + x = r / k * (k * (nx * 1)) + (r % k * (nx * 1) + (x * 1 + 0))
    have hdm := Nat.div_add_mod r k
    have : (k * (r / k) + r % k) * nx = r / k * (k * nx) + r % k * nx := by
      rw [Nat.add_mul, Nat.mul_comm k, Nat.mul_assoc]
    rw [hdm] at this
    simp only [Nat.mul_one, Nat.add_zero]
    omega

namespace ExSizes

open ExTiles (pf name1 name2 data1 data2 shared)

theorem noEmpty : Spec.NoEmptyData (dir up) := by
  intro n hn
  have h : ∀ m : Text, (dir up).data m ≠ [] := by
    intro m
    show (if m = data1 then (indices [2, 1, 2]).flatMap fun i => itemBytes .f64 .big (tile1.elem i)
      else (indices [2, 2, 2]).flatMap fun i => itemBytes .f64 .big (tile2.elem i)) ≠ []
    split <;> decide +kernel
  exact h _

/-- Record 1 at both rows of the second tile: row 1 of its record 0. -/
example : ∃ a, rdmdsMm pf (dir up) "T".toList { fill := ⟨7⟩ } = (dir up, .ok a) ∧ a.shape = [2, 3, 2] ∧
    a.get [1, 1, 0] = tile2.elem [0, 1, 0] ∧ a.get [1, 2, 0] = tile2.elem [0, 1, 0] ∧ tile2.elem [0, 1, 0] ≠ tile2.elem [1, 0, 0] := by
  obtain ⟨a, h1, h2, -, h4⟩ := C141_mapped_repeated pf (dir up) "T".toList .big ⟨7⟩ (by decide +kernel) noEmpty .f64 2 2 2 (by decide) (by decide) (by decide) _ common
    name1 name2 tile1 tile2 (found (.inl rfl)) (by decide +kernel) rfl rfl (files1 (.inl rfl)) (files2 (.inl rfl))
  exact ⟨a, h1, h2, h4 1 0 0 (by decide) (by decide) (by decide), h4 1 1 0 (by decide) (by decide) (by decide), by decide +kernel⟩

end ExSizes

end SG
