import Verif.Props.MdsIters
import Verif.Props.MdsMemmap
import Mathlib.Data.List.Induction
/-! # The bytes of data files (C110) -/

set_option linter.unusedSectionVars false
namespace SG
variable {F : Type}

/-! ## Specification -/

namespace Spec

/-- Bytes per number. -/
def width : Prec → Nat
  | .f32 => 4
  | .f64 => 8

/-- The bits of a number in the precision of the file. -/
def bitsOf [F64 F] [F32 F] (p : Prec) (x : F) : Nat := match p with
  | .f32 => (F32.toBits32 x).toNat
  | .f64 => (F64.toBits x).toNat

/-- The number with given bits. -/
def ofBits [F64 F] [F32 F] (p : Prec) (v : Nat) : F := match p with
  | .f32 => F32.ofBits32 (BitVec.ofNat 32 v)
  | .f64 => F64.ofBits (BitVec.ofNat 64 v)

/-- The weight of byte `j` of a number: in big-endian files the first byte is the most significant one, in little-endian files the
last. -/
def weight (p : Prec) (e : Endian) (j : Nat) : Nat := match e with
  | .big => 256 ^ (width p - 1 - j)
  | .little => 256 ^ j

/-- The bits given by the bytes `bs k, bs (k+1), …` of a number. -/
def valueAt (p : Prec) (e : Endian) (bs : List Byte) (k : Nat) : Nat :=
  ((List.range (width p)).map fun j => weight p e j * (bs.getD (k + j) 0).toNat).sum

end Spec

theorem width_eq (p : Prec) : p.size = Spec.width p := by cases p <;> rfl

theorem natBytes_get : ∀ (k v j : Nat), j < k → (natBytes k v)[j]? = some (BitVec.ofNat 8 (v / 256 ^ (k - 1 - j)))
  | 0, _, _, h => absurd h (Nat.not_lt_zero _)
  | k + 1, v, j, h => by
    show (natBytes k (v / 256) ++ [BitVec.ofNat 8 v])[j]? = _
    by_cases hj : j < k
    · rw [List.getElem?_append_left (by rw [natBytes_length]; exact hj), natBytes_get k _ j hj, Nat.div_div_eq_div_mul]
      congr 3
      rw [← Nat.pow_succ']
      congr 1
      omega
    · have : j = k := by omega
      subst this
      rw [List.getElem?_append_right (Nat.le_of_eq (natBytes_length _ _)), natBytes_length]
      simp

theorem itemBytes_get [F64 F] [F32 F] (p : Prec) (e : Endian) (x : F) (j : Nat) (hj : j < p.size) :
    (itemBytes p e x)[j]? = some (BitVec.ofNat 8 (Spec.bitsOf p x / Spec.weight p e j)) := by
  have hb : itemBytes p e x = e.order (natBytes p.size (Spec.bitsOf p x)) := by cases p <;> rfl
  rw [hb]
  cases e with
  | big =>
    show (natBytes p.size (Spec.bitsOf p x))[j]? = _
    rw [natBytes_get _ _ _ hj, width_eq]
    rfl
  | little =>
    show (natBytes p.size (Spec.bitsOf p x)).reverse[j]? = _
    rw [List.getElem?_reverse (by rw [natBytes_length]; exact hj), natBytes_length, natBytes_get _ _ _ (by omega)]
    congr 4
    omega

theorem sum_times (l : List Nat) (f : Nat → Nat) : (l.map fun j => 256 * f j).sum = 256 * (l.map f).sum := by
  induction l with
  | nil => rfl
  | cons a l ih => rw [List.map_cons, List.sum_cons, ih, List.map_cons, List.sum_cons, Nat.mul_add]

theorem bytesNat_sum (bs : List Byte) :
    bytesNat bs = ((List.range bs.length).map fun j => 256 ^ (bs.length - 1 - j) * (bs.getD j 0).toNat).sum := by
  induction bs using List.reverseRecOn with
  | nil => rfl
  | append_singleton l b ih =>
    rw [bytesNat_snoc, ih, List.length_append, List.length_singleton, List.range_succ, List.map_append, List.sum_append]
    have h1 : (List.range l.length).map (fun j => 256 ^ (l.length + 1 - 1 - j) * ((l ++ [b]).getD j 0).toNat) =
        (List.range l.length).map (fun j => 256 * (256 ^ (l.length - 1 - j) * (l.getD j 0).toNat)) := by
      apply List.map_congr_left
      intro j hj
      have hj := List.mem_range.1 hj
      rw [List.getD_eq_getElem?_getD, List.getElem?_append_left hj, ← List.getD_eq_getElem?_getD, ← Nat.mul_assoc, ← Nat.pow_succ']
      congr 2
      omega
    rw [h1, sum_times]
    simp

theorem bytesNat_reverse_sum (bs : List Byte) :
    bytesNat bs.reverse = ((List.range bs.length).map fun j => 256 ^ j * (bs.getD j 0).toNat).sum := by
  induction bs with
  | nil => rfl
  | cons b l ih =>
    rw [List.reverse_cons, bytesNat_snoc, ih, List.length_cons, List.range_succ_eq_map, List.map_cons, List.sum_cons, List.map_map]
    have h1 : (List.range l.length).map ((fun j => 256 ^ j * ((b :: l).getD j 0).toNat) ∘ Nat.succ) =
        (List.range l.length).map (fun j => 256 * (256 ^ j * (l.getD j 0).toNat)) := by
      apply List.map_congr_left
      intro j _
      show 256 ^ (j + 1) * ((b :: l).getD (j + 1) 0).toNat = _
      rw [← Nat.mul_assoc, ← Nat.pow_succ', List.getD_cons_succ]
    rw [h1, sum_times, Nat.add_comm]
    simp

theorem itemOf_value [F64 F] [F32 F] (p : Prec) (e : Endian) (bs : List Byte) (k : Nat) (hk : k + p.size ≤ bs.length) :
    itemOf p e ((bs.drop k).take p.size) = (Spec.ofBits p (Spec.valueAt p e bs k) : F) := by
  have hl : ((bs.drop k).take p.size).length = p.size := by rw [List.length_take, List.length_drop]; omega
  have hget : ∀ j, j < p.size → ((bs.drop k).take p.size).getD j 0 = bs.getD (k + j) 0 := by
    intro j hj
    rw [List.getD_eq_getElem?_getD, List.getD_eq_getElem?_getD, List.getElem?_take_of_lt hj, List.getElem?_drop]
  have hv : bytesNat (e.order ((bs.drop k).take p.size)) = Spec.valueAt p e bs k := by
    unfold Spec.valueAt
    rw [← width_eq]
    cases e with
    | big =>
      show bytesNat ((bs.drop k).take p.size) = _
      rw [bytesNat_sum, hl]
      congr 1
      apply List.map_congr_left
      intro j hj
      rw [hget j (List.mem_range.1 hj), width_eq]
      rfl
    | little =>
      show bytesNat ((bs.drop k).take p.size).reverse = _
      rw [bytesNat_reverse_sum, hl]
      congr 1
      apply List.map_congr_left
      intro j hj
      rw [hget j (List.mem_range.1 hj)]
      rfl
  unfold itemOf
  dsimp only
  rw [hv]
  cases p <;> rfl

/-- C110, writing: the data file has the numbers of the array in C order (last index fastest) and nothing else, each with its bits, the
most significant byte first (big-endian) or last (little-endian). -/
theorem C110_bytes_written [F64 F] [F32 F] (fe : F → Text) (fbase : Text) (arr : NdArr F) (args : WrArgs F) (lead dims : List Nat)
    (hsplit : Spec.Split args.ndims args.nrecords arr.shape lead dims) (hne : dims ≠ []) :
    ∃ w, wrmds fe fbase arr args = .ok w ∧ w.data.length = prodL arr.shape * Spec.width args.prec ∧
      ∀ idx, InShape arr.shape idx → ∀ j, j < Spec.width args.prec →
        w.data[ravel arr.shape idx * Spec.width args.prec + j]? =
          some (BitVec.ofNat 8 (Spec.bitsOf args.prec (arr.get idx) / Spec.weight args.prec args.endian j)) := by
  obtain ⟨n, hw⟩ := wrmds_split fe fbase hsplit hne
  refine ⟨_, hw, ?_, ?_⟩
  · rw [← width_eq, ← NdArr.toList_length]
    exact length_flatMap_const arr.toList (itemBytes args.prec args.endian) args.prec.size (fun x _ => itemBytes_length args.prec args.endian x)
  · intro idx hidx j hj
    rw [← width_eq] at hj ⊢
    show (arr.toList.flatMap (itemBytes args.prec args.endian))[_]? = _
    rw [getElem?_flatMap_const arr.toList _ args.prec.size (fun x _ => itemBytes_length args.prec args.endian x) _ j hj,
      NdArr.toList_get arr hidx]
    exact itemBytes_get args.prec args.endian _ j hj

/-- C110, reading: whatever the bytes of such a data file are, the array read has the numbers with these bits. -/
theorem C110_bytes_read [PyFloat F] [F64 F] [F32 F] (pf : Text → Py F) (fe : F → Text) (rnd : F → F) (d : MdsDir)
    (fbase : Text) (arr : NdArr F) (args : WrArgs F) (fill : F) (lead dims : List Nat)
    (hsplit : Spec.Split args.ndims args.nrecords arr.shape lead dims) (h2 : 2 ≤ dims.length) (hlead : ∀ n ∈ lead, 0 < n)
    (hlab : Spec.Labels pf fe rnd args) (hstale : ∀ n ∈ d.names, ¬ Spec.TileName (nameOf fbase args.itr) n) (bs : List Byte)
    (hbs : bs.length = prodL arr.shape * Spec.width args.prec) :
    ∃ (w : Written) (b : NdArr F), wrmds fe fbase arr args = .ok w ∧
      rdmds pf (d.write { w with data := bs }) fbase { itrs := Spec.itrsFor args.itr, endian := args.endian, fill := fill } = .ok b ∧
      b.shape = (if 1 < prodL lead then [prodL lead] else []) ++ dims ∧
      ∀ idx, InShape b.shape idx → b.get idx =
        Spec.ofBits args.prec (Spec.valueAt args.prec args.endian bs (ravel b.shape idx * Spec.width args.prec)) := by
  have hdne : dims ≠ [] := by intro e; rw [e] at h2; simp at h2
  obtain ⟨nd, hw⟩ := wrmds_split fe fbase hsplit hdne
  have hprod : prodL arr.shape = prodL lead * prodL dims := by rw [hsplit.parts, prodL_append]
  have hbs' : bs.length = prodL lead * prodL dims * args.prec.size := by rw [hbs, hprod, width_eq]
  obtain ⟨b, h3, h4, h5⟩ := rdmds_bytes (pf := pf) (fe := fe) (rnd := rnd) d fill nd h2 hlead hlab hstale bs hbs'
  refine ⟨_, b, hw, h3, h4, fun idx hidx => ?_⟩
  have hg := NdArr.toList_get b hidx
  have hs := size_pos args.prec
  have hr : ravel b.shape idx < b.toList.length := (List.getElem?_eq_some_iff.1 hg).1
  rw [h5, itemsOf_length] at hr
  rw [h5, itemsOf_get _ _ _ _ hr] at hg
  injection hg with hg
  rw [← hg, ← width_eq]
  apply itemOf_value
  rw [Nat.lt_div_iff_mul_lt hs] at hr
  have : (ravel b.shape idx + 1) * args.prec.size ≤ bs.length := by
    have h6 : ravel b.shape idx < bs.length / args.prec.size := (Nat.lt_div_iff_mul_lt hs).2 hr
    exact Nat.le_trans (Nat.mul_le_mul_right _ h6) (Nat.div_mul_le_self _ _)
  rw [Nat.add_mul, Nat.one_mul] at this
  exact this

/-- C110, names: the files are `fbase.meta` and `fbase.data`, with an iteration number (below 10^10) its ten decimal digits come between;
nothing else is created. -/
theorem C110_file_names [F64 F] [F32 F] (fe : F → Text) (d : MdsDir) (fbase : Text) (arr : NdArr F) (args : WrArgs F) (lead dims : List Nat)
    (hsplit : Spec.Split args.ndims args.nrecords arr.shape lead dims) (hne : dims ≠ []) :
    ∃ w, wrmds fe fbase arr args = .ok w ∧
      (∀ m, m ∈ (d.write w).names ↔ m ∈ d.names ∨ m = w.base ++ ".meta".toList ∨ m = w.base ++ ".data".toList) ∧
      (args.itr = none → w.base = fbase) ∧
      ∀ n, args.itr = some n → n < 10 ^ 10 → ∃ ds, w.base = fbase ++ '.' :: ds ∧ ds.length = 10 ∧ (∀ c ∈ ds, c.isDigit = true) ∧ textVal ds = n := by
  obtain ⟨k, hw⟩ := wrmds_split fe fbase hsplit hne
  refine ⟨_, hw, fun m => write_mem, fun h => ?_, fun n h hn => ⟨padZero 10 (natText n), ?_, ?_⟩⟩
  · show nameOf fbase args.itr = _
    rw [h]
    rfl
  · show nameOf fbase args.itr = _
    rw [h]
    rfl
  · exact padZero_spec hn (by decide)

/-! ## Examples -/

namespace ExFmt

open ExWr in
example := C110_bytes_written fe "T".toList arr args [2, 1] [2, 3] split (by simp)

open ExWr in
example := C110_file_names fe dir "T".toList arr args [2, 1] [2, 3] split (by simp)

open ExTiles (pf) in
open ExWr in
example := C110_bytes_read pf fe id dir "T".toList arr args ⟨0⟩ [2, 1] [2, 3] split (by decide) (by decide) labels noStale
  (List.replicate 96 7) (by decide)

/-- 0x01020304 in a little-endian file. -/
example : Spec.valueAt .f32 .little [9, 4, 3, 2, 1] 1 = 0x01020304 ∧ Spec.valueAt .f32 .big [9, 4, 3, 2, 1] 1 = 0x04030201 := by decide

end ExFmt

end SG
