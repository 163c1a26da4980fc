import Verif.Model.MdsData
import Verif.Lemmas.NdArr
import Verif.Lemmas.ComputeGrid
import Verif.Lemmas.GetObcs
/-! Lemmas on `rdmds` and `wrmds`. -/

set_option linter.unusedSectionVars false
namespace SG
variable {F : Type}

/-! ## Bytes -/

theorem natBytes_length : ∀ (k v : Nat), (natBytes k v).length = k
  | 0, _ => rfl
  | k + 1, v => by simp [natBytes, natBytes_length k]

theorem bytesNat_snoc (bs : List Byte) (b : Byte) : bytesNat (bs ++ [b]) = 256 * bytesNat bs + b.toNat := by
  simp [bytesNat]

theorem bytesNat_natBytes : ∀ (k v : Nat), bytesNat (natBytes k v) = v % 256 ^ k
  | 0, v => by simp [natBytes, bytesNat, Nat.mod_one]
  | k + 1, v => by
    show bytesNat (natBytes k (v / 256) ++ [BitVec.ofNat 8 v]) = _
    rw [bytesNat_snoc, bytesNat_natBytes k, BitVec.toNat_ofNat]
    have e : (256 : Nat) ^ (k + 1) = 256 * 256 ^ k := by rw [Nat.pow_succ, Nat.mul_comm]
    rw [e, Nat.mod_mul]
    show _ + v % 256 = _
    omega

theorem order_order (e : Endian) (bs : List Byte) : e.order (e.order bs) = bs := by
  cases e <;> simp [Endian.order]

theorem order_length (e : Endian) (bs : List Byte) : (e.order bs).length = bs.length := by
  cases e <;> simp [Endian.order]

theorem itemBytes_length [F64 F] [F32 F] (p : Prec) (e : Endian) (x : F) : (itemBytes p e x).length = p.size := by
  unfold itemBytes; rw [order_length, natBytes_length]

namespace Spec

/-- What a number becomes when it is stored: itself in double precision, the rounded number in single precision. -/
def rounded [F32 F] (p : Prec) (x : F) : F := match p with
  | .f32 => F32.ofBits32 (F32.toBits32 x)
  | .f64 => x

end Spec

theorem itemOf_itemBytes [F64 F] [F32 F] [LawfulF64 F] (p : Prec) (e : Endian) (x : F) :
    itemOf p e (itemBytes p e x) = Spec.rounded p x := by
  unfold itemOf itemBytes
  dsimp only
  rw [order_order, bytesNat_natBytes]
  cases p
  · show F32.ofBits32 (BitVec.ofNat 32 ((F32.toBits32 x).toNat % 256 ^ 4)) = F32.ofBits32 (F32.toBits32 x)
    rw [Nat.mod_eq_of_lt (by have := (F32.toBits32 x).isLt; omega), BitVec.ofNat_toNat, BitVec.setWidth_eq]
  · show F64.ofBits (BitVec.ofNat 64 ((F64.toBits x).toNat % 256 ^ 8)) = x
    rw [Nat.mod_eq_of_lt (by have := (F64.toBits x).isLt; omega), BitVec.ofNat_toNat, BitVec.setWidth_eq, LawfulF64.ofBits_toBits]

theorem size_pos (p : Prec) : 0 < p.size := by cases p <;> decide

theorem itemsOf_length [F64 F] [F32 F] (p : Prec) (e : Endian) (bs : List Byte) :
    (itemsOf p e bs : List F).length = bs.length / p.size := by simp [itemsOf]

theorem itemsOf_get [F64 F] [F32 F] (p : Prec) (e : Endian) (bs : List Byte) (k : Nat) (hk : k < bs.length / p.size) :
    (itemsOf p e bs : List F)[k]? = some (itemOf p e ((bs.drop (k * p.size)).take p.size)) := by
  unfold itemsOf
  rw [List.getElem?_map, List.getElem?_range hk]; rfl

theorem itemsOf_drop [F64 F] [F32 F] (p : Prec) (e : Endian) (bs : List Byte) (k : Nat) :
    (itemsOf p e (bs.drop (k * p.size)) : List F) = (itemsOf p e bs).drop k := by
  have hs := size_pos p
  have hl : (bs.length - k * p.size) / p.size = bs.length / p.size - k := by
    rw [Nat.mul_comm, Nat.sub_mul_div]
  apply List.ext_getElem?
  intro i
  rw [List.getElem?_drop]
  by_cases hi : i < bs.length / p.size - k
  · rw [itemsOf_get _ _ _ _ (by rw [List.length_drop, hl]; exact hi), itemsOf_get _ _ _ _ (by omega), List.drop_drop]
    rw [show k * p.size + i * p.size = (k + i) * p.size by rw [Nat.add_mul]]
  · rw [List.getElem?_eq_none (by rw [itemsOf_length, List.length_drop, hl]; omega),
      List.getElem?_eq_none (by rw [itemsOf_length]; omega)]

theorem itemsOf_bytes [F64 F] [F32 F] [LawfulF64 F] (p : Prec) (e : Endian) (l : List F) :
    itemsOf p e (l.flatMap (itemBytes p e)) = l.map (Spec.rounded p) := by
  have hlen := length_flatMap_const l (itemBytes p e) p.size (fun x _ => itemBytes_length p e x)
  have hs := size_pos p
  apply List.ext_getElem?
  intro k
  by_cases hk : k < l.length
  · rw [itemsOf_get _ _ _ _ (by rw [hlen, Nat.mul_div_cancel _ hs]; exact hk), List.getElem?_map, List.getElem?_eq_getElem hk]
    have : (List.drop (k * p.size) (l.flatMap (itemBytes p e))).take p.size = itemBytes p e l[k] := by
      apply List.ext_getElem?
      intro i
      by_cases hi : i < p.size
      · rw [List.getElem?_take_of_lt hi, List.getElem?_drop,
          getElem?_flatMap_const l _ p.size (fun x _ => itemBytes_length p e x) k i hi, List.getElem?_eq_getElem hk]
        rfl
      · rw [List.getElem?_take_eq_none (by omega), List.getElem?_eq_none (by rw [itemBytes_length]; omega)]
    rw [this, itemOf_itemBytes]; rfl
  · rw [List.getElem?_eq_none (by rw [itemsOf_length, hlen, Nat.mul_div_cancel _ hs]; omega),
      List.getElem?_eq_none (by rw [List.length_map]; omega)]

/-! ## Axes

One axis of a tile that is read: `dim` is the size of the result on this axis, `sel` says which position of the whole data set an index of
the result stands for, the tile covers `size` positions from `start`.  `T` are the indices of the result that are assigned, `S` the
indices in the tile that they get. -/

structure Axis where
  dim : Nat
  sel : Nat → Nat
  start : Nat
  size : Nat
  T : List Nat
  S : List Nat

/-- The position of index `q` is in the tile. -/
def Axis.covers (a : Axis) (q : Nat) : Prop := a.start ≤ a.sel q ∧ a.sel q < a.start + a.size

instance (a : Axis) (q : Nat) : Decidable (a.covers q) := by unfold Axis.covers; infer_instance

structure Axis.OK (a : Axis) : Prop where
  len : a.S.length = a.T.length
  nodup : a.T.Nodup
  mem : ∀ q, q ∈ a.T ↔ q < a.dim ∧ a.covers q
  src : ∀ m q : Nat, a.T[m]? = some q → a.S[m]? = some (a.sel q - a.start)

/-- The position of the index `q` is in the tile. -/
def InBox : List Axis → List Nat → Prop
  | [], [] => True
  | a :: axs, i :: q => a.covers i ∧ InBox axs q
  | _, _ => False

instance decInBox : ∀ axs q, Decidable (InBox axs q)
  | [], [] => isTrue trivial
  | a :: axs, i :: q => by have := decInBox axs q; unfold InBox; infer_instance
  | [], _ :: _ => isFalse id
  | _ :: _, [] => isFalse id

/-- Position in the tile. -/
def srcIdx : List Axis → List Nat → List Nat
  | a :: axs, i :: q => (a.sel i - a.start) :: srcIdx axs q
  | _, _ => []

theorem axes_hit : ∀ {axs : List Axis} {q : List Nat}, (∀ a ∈ axs, a.OK) → InShape (axs.map (·.dim)) q → InBox axs q →
    ∃ t, InShape (axs.map (·.T.length)) t ∧ NdArr.pick (axs.map (·.T)) t = q ∧ NdArr.pick (axs.map (·.S)) t = srcIdx axs q
  | [], [], _, _, _ => ⟨[], trivial, rfl, rfl⟩
  | a :: axs, i :: q, ok, hs, hb => by
    obtain ⟨t, h1, h2, h3⟩ := axes_hit (fun b hb => ok b (by simp [hb])) hs.2 hb.2
    have oka := ok a (by simp)
    obtain ⟨m, hm⟩ := List.mem_iff_getElem?.1 ((oka.mem i).2 ⟨hs.1, hb.1⟩)
    have hlt : m < a.T.length := by
      rcases Nat.lt_or_ge m a.T.length with h | h
      · exact h
      · rw [List.getElem?_eq_none h] at hm; cases hm
    refine ⟨m :: t, ⟨hlt, h1⟩, ?_, ?_⟩
    · show a.T.getD m 0 :: NdArr.pick (axs.map (·.T)) t = _
      rw [h2, List.getD_eq_getElem?_getD, hm]; rfl
    · show a.S.getD m 0 :: NdArr.pick (axs.map (·.S)) t = _
      rw [h3, List.getD_eq_getElem?_getD, oka.src m i hm]; rfl

theorem axes_pick : ∀ {axs : List Axis} {t : List Nat}, (∀ a ∈ axs, a.OK) → InShape (axs.map (·.T.length)) t →
    InShape (axs.map (·.dim)) (NdArr.pick (axs.map (·.T)) t) ∧ InBox axs (NdArr.pick (axs.map (·.T)) t)
  | [], [], _, _ => ⟨trivial, trivial⟩
  | a :: axs, m :: t, ok, h => by
    obtain ⟨h1, h2⟩ := axes_pick (fun b hb => ok b (by simp [hb])) h.2
    have oka := ok a (by simp)
    have hm : a.T[m]? = some (a.T.getD m 0) := by
      rw [List.getD_eq_getElem?_getD, List.getElem?_eq_getElem h.1]; rfl
    have := (oka.mem _).1 (List.mem_of_getElem? hm)
    exact ⟨⟨this.1, h1⟩, this.2, h2⟩

theorem axes_inj : ∀ {axs : List Axis} {t t' : List Nat}, (∀ a ∈ axs, a.OK) → InShape (axs.map (·.T.length)) t →
    InShape (axs.map (·.T.length)) t' → NdArr.pick (axs.map (·.T)) t = NdArr.pick (axs.map (·.T)) t' → t = t'
  | [], [], [], _, _, _, _ => rfl
  | a :: axs, m :: t, m' :: t', ok, h, h', he => by
    have he : a.T.getD m 0 :: NdArr.pick (axs.map (·.T)) t = a.T.getD m' 0 :: NdArr.pick (axs.map (·.T)) t' := he
    injection he with e1 e2
    have := axes_inj (fun b hb => ok b (by simp [hb])) h.2 h'.2 e2
    subst this
    rw [List.getD_eq_getElem?_getD, List.getD_eq_getElem?_getD, List.getElem?_eq_getElem h.1, List.getElem?_eq_getElem h'.1] at e1
    have e1 : a.T[m]'h.1 = a.T[m']'h'.1 := e1
    have := (List.getElem_inj (ok a (by simp)).nodup).1 e1
    rw [this]

/-! ### Kinds of axes -/

/-- All of an axis. -/
def plainAxis (g start size : Nat) : Axis := ⟨g, id, start, size, List.range' start size, List.range size⟩

theorem plainAxis_ok {g start size : Nat} (h : start + size ≤ g) : (plainAxis g start size).OK where
  len := by simp [plainAxis]
  nodup := List.nodup_range'
  mem q := by
    simp only [plainAxis, Axis.covers, id, List.mem_range'_1]
    omega
  src m q hm := by
    have hm : (List.range' start size)[m]? = some q := hm
    rcases Nat.lt_or_ge m size with h | h
    · rw [List.getElem?_range' h] at hm
      show (List.range size)[m]? = some (q - start)
      rw [List.getElem?_range h]
      injection hm with hm
      congr 1; omega
    · rw [List.getElem?_eq_none (by simpa using h)] at hm; cases hm

/-- Selected levels of an axis of `g` levels, all of them in the tile. -/
def levAxis (g : Nat) (L : List Nat) : Axis := ⟨L.length, fun q => L.getD q 0, 0, g, List.range L.length, L⟩

theorem levAxis_ok {g : Nat} {L : List Nat} (h : ∀ l ∈ L, l < g) : (levAxis g L).OK where
  len := by simp [levAxis]
  nodup := List.nodup_range
  mem q := by
    simp only [levAxis, Axis.covers, List.mem_range]
    constructor
    · intro hq
      refine ⟨hq, Nat.zero_le _, ?_⟩
      rw [Nat.zero_add, List.getD_eq_getElem?_getD, List.getElem?_eq_getElem hq]
      exact h _ (List.getElem_mem hq)
    · exact fun hq => hq.1
  src m q hm := by
    have hm : (List.range L.length)[m]? = some q := hm
    rcases Nat.lt_or_ge m L.length with h | h
    · rw [List.getElem?_range h] at hm
      injection hm with hm
      subst hm
      show L[m]? = some (L.getD m 0 - 0)
      rw [List.getD_eq_getElem?_getD, List.getElem?_eq_getElem h]; rfl
    · rw [List.getElem?_eq_none (by simpa using h)] at hm; cases hm

/-- The positions `r0 ≤ p < re` of an axis. -/
def winAxis (r0 re start size : Nat) : Axis :=
  let lo := min re (max r0 start)
  let hi := min re (max r0 (start + size))
  ⟨re - r0, fun q => q + r0, start, size, List.range' (lo - r0) (hi - lo), List.range' (lo - start) (hi - lo)⟩

theorem winAxis_ok {r0 re start size : Nat} (h : r0 ≤ re) : (winAxis r0 re start size).OK where
  len := by simp [winAxis]
  nodup := List.nodup_range'
  mem q := by
    simp only [winAxis, Axis.covers, List.mem_range'_1]
    omega
  src m q hm := by
    have hm : (List.range' (min re (max r0 start) - r0) (min re (max r0 (start + size)) - min re (max r0 start)))[m]? = some q := hm
    show (List.range' (min re (max r0 start) - start) (min re (max r0 (start + size)) - min re (max r0 start)))[m]? = some (q + r0 - start)
    rcases Nat.lt_or_ge m (min re (max r0 (start + size)) - min re (max r0 start)) with h | h
    · rw [List.getElem?_range' h] at hm ⊢
      injection hm with hm
      congr 1; omega
    · rw [List.getElem?_eq_none (by simpa using h)] at hm; cases hm

/-! ## Data sets -/

/-- What the tiles of a data set have in common: precision, number of records, global sizes (`gl` for level axes, `gm` for further axes,
`gy`, `gx`), sizes of a tile on the last axes (tiles have all of the level axes). -/
structure DataSet where
  prec : Prec
  R : Nat
  gl : List Nat
  gm : List Nat
  gy : Nat
  gx : Nat
  zm : List Nat
  zy : Nat
  zx : Nat

/-- Position of a tile. -/
structure Box where
  sm : List Nat
  sy : Nat
  sx : Nat

def DataSet.G (ds : DataSet) : List Nat := ds.gl ++ ds.gm ++ [ds.gy, ds.gx]
def DataSet.Z (ds : DataSet) : List Nat := ds.gl ++ ds.zm ++ [ds.zy, ds.zx]
def Box.start (b : Box) (ds : DataSet) : List Nat := List.replicate ds.gl.length 0 ++ b.sm ++ [b.sy, b.sx]

/-- Intervals of sizes `Z` from `S` are inside `G`. -/
def Fits : List Nat → List Nat → List Nat → Prop
  | [], [], [] => True
  | g :: G, s :: S, z :: Z => s + z ≤ g ∧ Fits G S Z
  | _, _, _ => False

def plains : List Nat → List Nat → List Nat → List Axis
  | g :: G, s :: S, z :: Z => plainAxis g s z :: plains G S Z
  | _, _, _ => []

/-- A window `ri0,rie,rj0,rje`, if any. -/
abbrev Win := Option (Nat × Nat × Nat × Nat)

def axisY (ds : DataSet) (b : Box) : Win → Axis
  | none => plainAxis ds.gy b.sy ds.zy
  | some (_, _, rj0, rje) => winAxis rj0 rje b.sy ds.zy
def axisX (ds : DataSet) (b : Box) : Win → Axis
  | none => plainAxis ds.gx b.sx ds.zx
  | some (ri0, rie, _, _) => winAxis ri0 rie b.sx ds.zx

/-- The axes of a tile; `L` are the selected levels. -/
def axesOf (ds : DataSet) (b : Box) (L : List (List Nat)) (w : Win) : List Axis :=
  List.zipWith levAxis ds.gl L ++ plains ds.gm b.sm ds.zm ++ [axisY ds b w, axisX ds b w]

def Win.OK : Win → Prop
  | none => True
  | some (ri0, rie, rj0, rje) => ri0 ≤ rie ∧ rj0 ≤ rje

structure Box.OK (b : Box) (ds : DataSet) : Prop where
  mid : Fits ds.gm b.sm ds.zm
  y : b.sy + ds.zy ≤ ds.gy
  x : b.sx + ds.zx ≤ ds.gx

/-- `L` are index lists for axes of sizes `gl`, none of them longer than its axis. -/
def LevOK : List Nat → List (List Nat) → Prop
  | [], [] => True
  | g :: gl, l :: L => (l.length ≤ g ∧ ∀ i ∈ l, i < g) ∧ LevOK gl L
  | _, _ => False

theorem Fits.length : ∀ {G S Z : List Nat}, Fits G S Z → S.length = G.length ∧ Z.length = G.length
  | [], [], [], _ => ⟨rfl, rfl⟩
  | _ :: G, _ :: S, _ :: Z, h => by
    obtain ⟨h1, h2⟩ := Fits.length h.2
    simp [h1, h2]

theorem LevOK.length : ∀ {gl : List Nat} {L : List (List Nat)}, LevOK gl L → L.length = gl.length
  | [], [], _ => rfl
  | _ :: _, _ :: _, h => by simp [LevOK.length h.2]

theorem plains_ok : ∀ {G S Z : List Nat}, Fits G S Z → ∀ a ∈ plains G S Z, a.OK
  | [], [], [], _, a, ha => by cases ha
  | g :: G, s :: S, z :: Z, h, a, ha => by
    rcases List.mem_cons.1 ha with ha | ha
    · rw [ha]; exact plainAxis_ok h.1
    · exact plains_ok h.2 a ha

theorem levs_ok : ∀ {gl : List Nat} {L : List (List Nat)}, LevOK gl L → ∀ a ∈ List.zipWith levAxis gl L, a.OK
  | [], [], _, a, ha => by cases ha
  | g :: gl, l :: L, h, a, ha => by
    rcases List.mem_cons.1 ha with ha | ha
    · rw [ha]; exact levAxis_ok h.1.2
    · exact levs_ok h.2 a ha

theorem axesOf_ok {ds : DataSet} {b : Box} {L : List (List Nat)} {w : Win} (hb : b.OK ds) (hL : LevOK ds.gl L) (hw : w.OK) :
    ∀ a ∈ axesOf ds b L w, a.OK := by
  intro a ha
  unfold axesOf at ha
  simp only [List.mem_append, List.mem_cons, List.not_mem_nil, or_false] at ha
  rcases ha with (ha | ha) | ha | ha
  · exact levs_ok hL a ha
  · exact plains_ok hb.mid a ha
  · rw [ha]
    cases w with
    | none => exact plainAxis_ok hb.y
    | some w => exact winAxis_ok hw.2
  · rw [ha]
    cases w with
    | none => exact plainAxis_ok hb.x
    | some w => exact winAxis_ok hw.1

/-- Sizes of the last two axes of the result. -/
def lastDims (gy gx : Nat) : Win → List Nat
  | none => [gy, gx]
  | some (ri0, rie, rj0, rje) => [rje - rj0, rie - ri0]

/-- Sizes of the result. -/
def outDims (ds : DataSet) (L : List (List Nat)) (w : Win) : List Nat := L.map List.length ++ ds.gm ++ lastDims ds.gy ds.gx w

theorem axesOf_dim {ds : DataSet} {b : Box} {L : List (List Nat)} {w : Win} (hb : b.OK ds) (hL : LevOK ds.gl L) :
    (axesOf ds b L w).map (·.dim) = outDims ds L w := by
  have h1 : ∀ {gl : List Nat} {L : List (List Nat)}, LevOK gl L → (List.zipWith levAxis gl L).map (·.dim) = L.map List.length := by
    intro gl L h
    induction gl generalizing L with
    | nil => cases L with
      | nil => rfl
      | cons => exact h.elim
    | cons g gl ih => cases L with
      | nil => exact h.elim
      | cons l L => rw [List.zipWith_cons_cons, List.map_cons, ih h.2]; rfl
  have h2 : ∀ {G S Z : List Nat}, Fits G S Z → (plains G S Z).map (·.dim) = G := by
    intro G S Z h
    induction G generalizing S Z with
    | nil => cases S <;> cases Z <;> first | rfl | exact h.elim
    | cons g G ih => cases S with
      | nil => exact h.elim
      | cons s S => cases Z with
        | nil => exact h.elim
        | cons z Z => show g :: (plains G S Z).map (·.dim) = _; rw [ih h.2]
  unfold axesOf outDims
  rw [List.map_append, List.map_append, h1 hL, h2 hb.mid]
  cases w <;> rfl

/-! ### Slices of the result -/

theorem sliceAxes_eq {dims : List Nat} {sl : List (Int × Int)} (h : sl.length = dims.length) :
    sliceAxes dims sl = List.zipWith (fun n x => sliceList n x.1 x.2) dims sl := by
  apply List.ext_getElem?
  intro k
  unfold sliceAxes
  rw [List.getElem?_map, List.getElem?_zipWith]
  by_cases hk : k < dims.length
  · rw [List.getElem?_range hk, List.getElem?_eq_getElem hk, List.getElem?_eq_getElem (h ▸ hk)]
    show some (match sl[k]? with
      | some (a, b) => sliceList (dims.getD k 0) a b
      | none => List.range (dims.getD k 0)) = _
    rw [List.getElem?_eq_getElem (h ▸ hk), List.getD_eq_getElem?_getD, List.getElem?_eq_getElem hk]
    rfl
  · rw [List.getElem?_eq_none (by simpa using hk), List.getElem?_eq_none (by omega)]
    rfl

/-- The slices of the result that a tile is assigned to. -/
def tgtY (ds : DataSet) (b : Box) : Win → Int × Int
  | none => ((b.sy : Int), ((b.sy + ds.zy : Nat) : Int))
  | some (_, _, rj0, rje) => (min (rje : Int) (max rj0 b.sy) - rj0, min (rje : Int) (max rj0 ((b.sy + ds.zy : Nat) : Int)) - rj0)
def tgtX (ds : DataSet) (b : Box) : Win → Int × Int
  | none => ((b.sx : Int), ((b.sx + ds.zx : Nat) : Int))
  | some (ri0, rie, _, _) => (min (rie : Int) (max ri0 b.sx) - ri0, min (rie : Int) (max ri0 ((b.sx + ds.zx : Nat) : Int)) - ri0)

def tgts (ds : DataSet) (b : Box) (w : Win) : List (Int × Int) :=
  ds.gl.map (fun g : Nat => ((0 : Int), (g : Int))) ++
    List.zipWith (fun s z : Nat => ((s : Int), ((s + z : Nat) : Int))) b.sm ds.zm ++ [tgtY ds b w, tgtX ds b w]

theorem slice_win {r0 re start size : Nat} (h : r0 ≤ re) :
    sliceList (re - r0) (min (re : Int) (max r0 start) - r0) (min (re : Int) (max r0 ((start + size : Nat) : Int)) - r0) =
      (winAxis r0 re start size).T := by
  have e1 : min (re : Int) (max r0 start) - r0 = ((min re (max r0 start) - r0 : Nat) : Int) := by omega
  have e2 : min (re : Int) (max r0 ((start + size : Nat) : Int)) - r0 = ((min re (max r0 (start + size)) - r0 : Nat) : Int) := by omega
  rw [e1, e2, sliceList_nat (by omega) (by omega)]
  show _ = List.range' _ _
  congr 1; omega

theorem tgts_length {ds : DataSet} {b : Box} {L : List (List Nat)} {w : Win} (hb : b.OK ds) (hL : LevOK ds.gl L) :
    (tgts ds b w).length = (outDims ds L w).length := by
  have h1 := hb.mid.length
  have h2 := hL.length
  cases w <;> simp [tgts, outDims, lastDims, h1, h2]

theorem slices_eq {ds : DataSet} {b : Box} {L : List (List Nat)} {w : Win} (hb : b.OK ds) (hL : LevOK ds.gl L) (hw : w.OK) :
    sliceAxes (outDims ds L w) (tgts ds b w) = (axesOf ds b L w).map (·.T) := by
  rw [sliceAxes_eq (tgts_length hb hL)]
  have h1 : ∀ {gl : List Nat} {L : List (List Nat)}, LevOK gl L →
      List.zipWith (fun n (x : Int × Int) => sliceList n x.1 x.2) (L.map List.length) (gl.map fun g : Nat => ((0 : Int), (g : Int))) =
      (List.zipWith levAxis gl L).map (·.T) := by
    intro gl L h
    induction gl generalizing L with
    | nil => cases L with
      | nil => rfl
      | cons => exact h.elim
    | cons g gl ih => cases L with
      | nil => exact h.elim
      | cons l L =>
        rw [List.map_cons, List.map_cons, List.zipWith_cons_cons, List.zipWith_cons_cons, List.map_cons, ih h.2]
        congr 1
        show sliceList l.length 0 g = List.range l.length
        unfold sliceList sliceOf
        have := h.1.1
        rw [List.range_eq_range']
        dsimp only
        rw [if_neg (by omega), if_neg (by omega)]
        congr 1 <;> omega
  have h2 : ∀ {G S Z : List Nat}, Fits G S Z → List.zipWith (fun n (x : Int × Int) => sliceList n x.1 x.2) G
      (List.zipWith (fun s z : Nat => ((s : Int), ((s + z : Nat) : Int))) S Z) = (plains G S Z).map (·.T) := by
    intro G S Z h
    induction G generalizing S Z with
    | nil => cases S <;> cases Z <;> first | rfl | exact h.elim
    | cons g G ih => cases S with
      | nil => exact h.elim
      | cons s S => cases Z with
        | nil => exact h.elim
        | cons z Z =>
          rw [List.zipWith_cons_cons, List.zipWith_cons_cons, ih h.2]
          show sliceList g s ((s + z : Nat) : Int) :: _ = List.range' s z :: _
          rw [sliceList_nat (by omega) h.1]
          congr 2; omega
  have l1 := hL.length
  have l2 := hb.mid.length
  unfold outDims tgts axesOf
  rw [List.zipWith_append (by simp [l1, l2]), List.zipWith_append (by simp [l1]), h1 hL, h2 hb.mid, List.map_append, List.map_append]
  congr 1
  cases w with
  | none =>
    show [sliceList ds.gy b.sy ((b.sy + ds.zy : Nat) : Int), sliceList ds.gx b.sx ((b.sx + ds.zx : Nat) : Int)] =
      [List.range' b.sy ds.zy, List.range' b.sx ds.zx]
    rw [sliceList_nat (by omega) hb.y, sliceList_nat (by omega) hb.x]
    congr 2
    · omega
    · congr 1; omega
  | some w =>
    obtain ⟨ri0, rie, rj0, rje⟩ := w
    show [sliceList (rje - rj0) _ _, sliceList (rie - ri0) _ _] = [(winAxis rj0 rje b.sy ds.zy).T, (winAxis ri0 rie b.sx ds.zx).T]
    rw [← slice_win hw.2, ← slice_win hw.1]
    rfl

/-! ### Parts of a tile that are read -/

theorem levAxes_append : ∀ {levs : List (List Int)} {gl : List Nat} {L : List (List Nat)} (r : List Nat), levAxes levs gl = .ok L →
    levs.length = gl.length → levAxes levs (gl ++ r) = .ok (L ++ r.map List.range)
  | [], [], L, r, h, _ => by
    have : L = [] := by injection h with h; exact h.symm
    subst this; rfl
  | l :: levs, g :: gl, L, r, h, hl => by
    unfold levAxes at h
    obtain ⟨is, h1, h⟩ := bind_ok_inv h
    obtain ⟨rest, h2, h⟩ := bind_ok_inv h
    have : is :: rest = L := by injection h
    subst this
    show levAxes (l :: levs) (g :: (gl ++ r)) = _
    unfold levAxes
    rw [h1, Py.ok_bind, levAxes_append r h2 (by simpa using hl)]
    rfl

/-- Bounds in the source (x first). -/
def srcOf (ds : DataSet) (b : Box) : Win → Option (Int × Int × Int × Int)
  | none => none
  | some (ri0, rie, rj0, rje) => some
    (min (rie : Int) (max ri0 b.sx) - b.sx, min (rie : Int) (max ri0 ((b.sx + ds.zx : Nat) : Int)) - b.sx,
     min (rje : Int) (max rj0 b.sy) - b.sy, min (rje : Int) (max rj0 ((b.sy + ds.zy : Nat) : Int)) - b.sy)

theorem slice_src {r0 re start size : Nat}
    (h : min (re : Int) (max r0 start) - start < min (re : Int) (max r0 ((start + size : Nat) : Int)) - start) :
    sliceList size (min (re : Int) (max r0 start) - start) (min (re : Int) (max r0 ((start + size : Nat) : Int)) - start) =
      (winAxis r0 re start size).S := by
  have e1 : min (re : Int) (max r0 start) - start = ((min re (max r0 start) - start : Nat) : Int) := by omega
  have e2 : min (re : Int) (max r0 ((start + size : Nat) : Int)) - start = ((min re (max r0 (start + size)) - start : Nat) : Int) := by omega
  rw [e1, e2, sliceList_nat (by omega) (by omega)]
  show _ = List.range' _ _
  congr 1; omega

theorem source_eq {args : RdArgs F} {ds : DataSet} {b : Box} {L : List (List Nat)} {w : Win} (hb : b.OK ds)
    (hL : LevOK ds.gl L) (hlev : levAxes (args.lev.map Sel.list) ds.gl = .ok L) (hlen : args.lev.length = ds.gl.length)
    (hne : nonEmptySrc (srcOf ds b w) = true) :
    sourceAxes args ds.Z (srcOf ds b w) = .ok ((axesOf ds b L w).map (·.S)) := by
  have h1 : ∀ {gl : List Nat} {L : List (List Nat)}, LevOK gl L → (List.zipWith levAxis gl L).map (·.S) = L := by
    intro gl L h
    induction gl generalizing L with
    | nil => cases L with
      | nil => rfl
      | cons => exact h.elim
    | cons g gl ih => cases L with
      | nil => exact h.elim
      | cons l L => rw [List.zipWith_cons_cons, List.map_cons, ih h.2]; rfl
  have h2 : ∀ {G S Z : List Nat}, Fits G S Z → (plains G S Z).map (·.S) = Z.map List.range := by
    intro G S Z h
    induction G generalizing S Z with
    | nil => cases S <;> cases Z <;> first | rfl | exact h.elim
    | cons g G ih => cases S with
      | nil => exact h.elim
      | cons s S => cases Z with
        | nil => exact h.elim
        | cons z Z => show List.range z :: (plains G S Z).map (·.S) = _; rw [ih h.2]; rfl
  have hbase : levAxes (args.lev.map Sel.list) ds.Z = .ok (L ++ (ds.zm ++ [ds.zy, ds.zx]).map List.range) := by
    unfold DataSet.Z
    rw [List.append_assoc]
    exact levAxes_append _ hlev (by simpa using hlen)
  unfold sourceAxes axesOf
  rw [hbase, Py.ok_bind]
  rw [List.map_append (l₁ := List.zipWith levAxis ds.gl L ++ plains ds.gm b.sm ds.zm), List.map_append (l₁ := List.zipWith levAxis ds.gl L), h1 hL, h2 hb.mid]
  cases w with
  | none =>
    show Except.ok (L ++ (ds.zm ++ [ds.zy, ds.zx]).map List.range) = Except.ok (L ++ ds.zm.map List.range ++ [List.range ds.zy, List.range ds.zx])
    simp
  | some w =>
    obtain ⟨ri0, rie, rj0, rje⟩ := w
    have hne : (decide _ && decide _) = true := hne
    rw [Bool.and_eq_true, decide_eq_true_eq, decide_eq_true_eq] at hne
    show sliceLast2 _ ds.Z _ _ _ _ = _
    unfold sliceLast2
    have e1 : fromEnd ds.Z 1 = .ok ds.zy := by unfold fromEnd DataSet.Z; simp
    have e2 : fromEnd ds.Z 0 = .ok ds.zx := by unfold fromEnd DataSet.Z; simp
    rw [e1, Py.ok_bind, e2, Py.ok_bind]
    rw [slice_src hne.1, slice_src hne.2]
    have e3 : (L ++ (ds.zm ++ [ds.zy, ds.zx]).map List.range).take ((L ++ (ds.zm ++ [ds.zy, ds.zx]).map List.range).length - 2) =
        L ++ ds.zm.map List.range := by
      have : L ++ (ds.zm ++ [ds.zy, ds.zx]).map List.range = (L ++ ds.zm.map List.range) ++ [List.range ds.zy, List.range ds.zx] := by simp
      rw [this]
      have hl : ((L ++ ds.zm.map List.range) ++ [List.range ds.zy, List.range ds.zx]).length - 2 = (L ++ ds.zm.map List.range).length := by
        rw [List.length_append]; exact Nat.add_sub_cancel _ 2
      rw [hl, List.take_left]
    rw [e3]
    rfl

/-- Where nothing is read the tile has nothing of the window. -/
theorem empty_src {ds : DataSet} {b : Box} {L : List (List Nat)} {w : Win} (hb : b.OK ds) (hL : LevOK ds.gl L) (hw : w.OK)
    (hne : nonEmptySrc (srcOf ds b w) = false) : ∀ q, InShape ((axesOf ds b L w).map (·.dim)) q → ¬ InBox (axesOf ds b L w) q := by
  intro q hq hbox
  obtain ⟨t, h1, -, -⟩ := axes_hit (axesOf_ok hb hL hw) hq hbox
  cases w with
  | none => cases hne
  | some w =>
    obtain ⟨ri0, rie, rj0, rje⟩ := w
    have hne : (decide _ && decide _) = false := hne
    rw [Bool.and_eq_false_iff, decide_eq_false_iff_not, decide_eq_false_iff_not] at hne
    have key : ∀ (l m : List Nat) (t : List Nat), InShape (l ++ m) t → InShape m (t.drop l.length) := by
      intro l
      induction l with
      | nil => intro m t h; exact h
      | cons n l ih =>
        intro m t h
        cases t with
        | nil => exact h.elim
        | cons i t => exact ih m t h.2
    have := key _ _ t (by
      unfold axesOf at h1
      rw [List.map_append] at h1
      exact h1)
    generalize List.drop _ t = u at this
    match u, this with
    | [y, x], h =>
      have hy : y < (winAxis rj0 rje b.sy ds.zy).T.length := h.1
      have hx : x < (winAxis ri0 rie b.sx ds.zx).T.length := h.2.1
      simp only [winAxis, List.length_range'] at hy hx
      omega
    | [], h => exact h
    | [y], h => exact h.2
    | _ :: _ :: _ :: _, h => exact h.2.2

end SG
