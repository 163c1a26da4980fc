import Verif.Model.GridIO
import Verif.Spec.Format
import Verif.Lemmas.Lists

set_option linter.unusedSectionVars false

namespace SG

/-! ### bytes -/

theorem ofBE_toNat (b0 b1 b2 b3 b4 b5 b6 b7 : Byte) :
    (ofBE b0 b1 b2 b3 b4 b5 b6 b7).toNat =
      [b0, b1, b2, b3, b4, b5, b6, b7].foldl (fun acc (b : Byte) => acc * 256 + b.toNat) 0 := by
  have key : ∀ {w : Nat} (x : BitVec w) (y : Byte), (x ++ y).toNat = x.toNat * 256 + y.toNat := by
    intro w x y
    rw [BitVec.toNat_append, ← Nat.shiftLeft_add_eq_or_of_lt y.isLt, Nat.shiftLeft_eq]
  simp only [ofBE, key, List.foldl_cons, List.foldl_nil]
  omega

theorem ofBE_beBytes (b : BitVec 64) :
    ofBE (b.extractLsb' 56 8) (b.extractLsb' 48 8) (b.extractLsb' 40 8) (b.extractLsb' 32 8)
      (b.extractLsb' 24 8) (b.extractLsb' 16 8) (b.extractLsb' 8 8) (b.extractLsb' 0 8) = b := by
  apply BitVec.eq_of_toNat_eq
  rw [ofBE_toNat]
  simp only [List.foldl_cons, List.foldl_nil, BitVec.extractLsb'_toNat, Nat.shiftRight_eq_div_pow]
  have := b.isLt
  omega

theorem beBytes_ofBE (b0 b1 b2 b3 b4 b5 b6 b7 : Byte) :
    beBytes (ofBE b0 b1 b2 b3 b4 b5 b6 b7) = [b0, b1, b2, b3, b4, b5, b6, b7] := by
  have h := ofBE_toNat b0 b1 b2 b3 b4 b5 b6 b7
  simp only [List.foldl_cons, List.foldl_nil] at h
  have h0 := b0.isLt; have h1 := b1.isLt; have h2 := b2.isLt; have h3 := b3.isLt
  have h4 := b4.isLt; have h5 := b5.isLt; have h6 := b6.isLt; have h7 := b7.isLt
  simp only [beBytes, List.cons.injEq, and_true]
  refine ⟨?_, ?_, ?_, ?_, ?_, ?_, ?_, ?_⟩ <;>
  · apply BitVec.eq_of_toNat_eq
    rw [BitVec.extractLsb'_toNat, Nat.shiftRight_eq_div_pow, h]
    omega

theorem beBytes_length (b : BitVec 64) : (beBytes b).length = 8 := rfl

section
variable {F : Type} [F64 F]

theorem fromfile_length (bs : List Byte) : (fromfile bs : List F).length = bs.length / 8 := by
  fun_induction fromfile (F := F) bs with
  | case1 b0 b1 b2 b3 b4 b5 b6 b7 rest ih =>
    simp only [List.length_cons, ih]; omega
  | case2 l h =>
    have : l.length < 8 := by
      match l, h with
      | [], _ => simp
      | [_], _ => simp
      | [_, _], _ => simp
      | [_, _, _], _ => simp
      | [_, _, _, _], _ => simp
      | [_, _, _, _, _], _ => simp
      | [_, _, _, _, _, _], _ => simp
      | [_, _, _, _, _, _, _], _ => simp
      | a :: b :: c :: d :: e :: f :: g :: i :: r, h => exact absurd rfl (h a b c d e f g i r)
    simp only [List.length_nil]; omega

theorem fromfile_get (bs : List Byte) (n : Nat) :
    (fromfile bs : List F)[n]? = (Spec.beDouble bs n).map fun v => F64.ofBits (BitVec.ofNat 64 v) := by
  fun_induction fromfile (F := F) bs generalizing n with
  | case1 b0 b1 b2 b3 b4 b5 b6 b7 rest ih =>
    cases n with
    | zero =>
      simp only [Spec.beDouble, List.length_cons, Nat.mul_zero, List.drop_zero]
      rw [if_pos (by omega)]
      have := ofBE_toNat b0 b1 b2 b3 b4 b5 b6 b7
      simp only [List.foldl_cons, List.foldl_nil] at this
      simp only [List.getElem?_cons_zero, List.take_succ_cons, List.take_zero, List.foldl_cons,
        List.foldl_nil, Option.map_some, ← this, BitVec.ofNat_toNat, BitVec.setWidth_eq]
    | succ n =>
      simp only [List.getElem?_cons_succ, ih]
      congr 1
      unfold Spec.beDouble
      have : 8 * (n + 1) = 8 * n + 8 := by omega
      simp only [this, List.drop_succ_cons, List.length_cons]
      by_cases h : 8 * n + 8 ≤ rest.length
      · rw [if_pos h, if_pos (by omega)]
      · rw [if_neg h, if_neg (by omega)]
  | case2 l h =>
    have hl : (fromfile l : List F) = [] := by
      rw [fromfile]; exact h
    have : l.length / 8 = 0 := by rw [← fromfile_length (F := F), hl]; rfl
    unfold Spec.beDouble
    rw [if_neg (by omega)]; simp

theorem fromfile_enc [LawfulF64 F] (l : List F) (tail : List Byte) :
    fromfile ((l.flatMap fun v => beBytes (F64.toBits v)) ++ tail) = l ++ fromfile tail := by
  induction l with
  | nil => simp
  | cons a t ih =>
    simp only [List.flatMap_cons, List.append_assoc, List.cons_append]
    have e : ∀ (b : BitVec 64) (r : List Byte), (fromfile (beBytes b ++ r) : List F) =
        F64.ofBits b :: fromfile r := by
      intro b r
      simp only [beBytes, List.cons_append, List.nil_append]
      rw [fromfile, ofBE_beBytes]
    rw [e, ih, LawfulF64.ofBits_toBits]

theorem enc_fromfile [LawfulF64 F] (bs : List Byte) (h : bs.length % 8 = 0) :
    ((fromfile bs : List F).flatMap fun v => beBytes (F64.toBits v)) = bs := by
  fun_induction fromfile (F := F) bs with
  | case1 b0 b1 b2 b3 b4 b5 b6 b7 rest ih =>
    simp only [List.length_cons] at h
    simp only [List.flatMap_cons, LawfulF64.toBits_ofBits, beBytes_ofBE, List.cons_append,
      List.nil_append, ih (by omega)]
  | case2 l hl =>
    have hl : (fromfile l : List F) = [] := by
      rw [fromfile]; exact hl
    have : l.length / 8 = 0 := by rw [← fromfile_length (F := F), hl]; rfl
    have : l.length = 0 := by omega
    simp [List.eq_nil_of_length_eq_zero this]
end

/-! ### reading -/

section
variable {F : Type} [PyFloat F]

/-- The array read for one field. -/
def fieldMat (raw : List F) (ni nj : Nat) (strict : Bool) (x : Field × Nat × Nat) : Py (Mat F) := do
  let m ← reshapeF ((raw.take ((ni + 1) * (nj + 1) * (Mgf.names.idxOf x.1 + 1))).drop
    ((ni + 1) * (nj + 1) * Mgf.names.idxOf x.1)) (ni + 1) (nj + 1)
  if strict && ((x.2.1 == 0 && anyRow m ni) || (x.2.2 == 0 && anyCol m nj)) then
    throw .runtimeError
  return ⟨min (ni + x.2.1) m.rows, min (nj + x.2.2) m.cols, m.get⟩

theorem readField_eq (raw : List F) (ni nj : Nat) (strict : Bool) (g : Grid F)
    (x : Field × Nat × Nat) :
    readField raw ni nj strict g x = (fieldMat raw ni nj strict x).map (g.put x.1) := by
  obtain ⟨f, a, b⟩ := x
  simp only [readField, fieldMat]
  cases reshapeF (List.drop ((ni + 1) * (nj + 1) * List.idxOf f Mgf.names)
    (List.take ((ni + 1) * (nj + 1) * (List.idxOf f Mgf.names + 1)) raw)) (ni + 1) (nj + 1) with
  | error e => rfl
  | ok m =>
    simp only [bind, Except.bind]
    by_cases h : (strict && (a == 0 && anyRow m ni || b == 0 && anyCol m nj)) = true
    · simp [h, throw, throwThe, MonadExceptOf.throw, Except.map]
    · simp [h, pure, Except.pure, Except.map]

theorem read_ok (raw : List F) (ni nj : Nat) (strict : Bool) (xs : List (Field × Nat × Nat))
    (m : Field → Mat F) (h : ∀ x ∈ xs, fieldMat raw ni nj strict x = .ok (m x.1)) (g : Grid F) :
    xs.foldlM (readField raw ni nj strict) g =
      .ok (fun f => if f ∈ xs.map (·.1) then .arr (m f) else g f) := by
  induction xs generalizing g with
  | nil => simp [pure, Except.pure]
  | cons a t ih =>
    rw [List.foldlM_cons, readField_eq, h a (by simp)]
    simp only [Except.map, bind, Except.bind]
    rw [ih (fun x hx => h x (by simp [hx]))]
    congr 1; funext f
    simp only [List.map_cons, List.mem_cons, Grid.put]
    by_cases h1 : f ∈ t.map (·.1)
    · simp [h1]
    · by_cases h2 : f = a.1
      · simp [h2]
      · simp [h1, h2]

theorem read_err (raw : List F) (ni nj : Nat) (strict : Bool) (xs : List (Field × Nat × Nat))
    (x) (hx : x ∈ xs) (e) (he : fieldMat raw ni nj strict x = .error e) (g : Grid F) :
    ∃ y ∈ xs, ∃ e', fieldMat raw ni nj strict y = .error e' ∧
      xs.foldlM (readField raw ni nj strict) g = .error e' := by
  induction xs generalizing g with
  | nil => simp at hx
  | cons a t ih =>
    rw [List.foldlM_cons, readField_eq]
    cases ha : fieldMat raw ni nj strict a with
    | error e' => exact ⟨a, by simp, e', ha, rfl⟩
    | ok m =>
      have : x ∈ t := by
        rcases List.mem_cons.1 hx with rfl | h
        · rw [ha] at he; cases he
        · exact h
      obtain ⟨y, hy, e', h1, h2⟩ := ih this (g.put a.1 m)
      exact ⟨y, by simp [hy], e', h1, h2⟩

/-- Everything about one entry of the zipped tuple list. -/
theorem zipped_mem (x : Field × Nat × Nat) (h : x ∈ Mgf.zipped) :
    Mgf.names.idxOf x.1 = Spec.slot x.1 ∧ (∀ ni, ni + x.2.1 = Spec.nrows x.1 ni) ∧
      (∀ nj, nj + x.2.2 = Spec.ncols x.1 nj) ∧ x.2.1 ≤ 1 ∧ x.2.2 ≤ 1 := by
  have : ∀ x ∈ Mgf.zipped, Mgf.names.idxOf x.1 = Spec.slot x.1 ∧
      (x.2.1 = Spec.nrows x.1 0) ∧ (x.2.2 = Spec.ncols x.1 0) ∧ x.2.1 ≤ 1 ∧ x.2.2 ≤ 1 := by decide
  obtain ⟨h1, h2, h3, h4, h5⟩ := this x h
  refine ⟨h1, fun ni => ?_, fun nj => ?_, h4, h5⟩
  · rw [h2]; cases x.1 <;> simp [Spec.nrows]
  · rw [h3]; cases x.1 <;> simp [Spec.ncols]

theorem mem_zipped_names (f : Field) : f ∈ Mgf.zipped.map (·.1) := by cases f <;> decide

theorem zipped_get (f : Field) :
    ∃ a b, Mgf.zipped[Spec.slot f]? = some (f, a, b) ∧ (f, a, b) ∈ Mgf.zipped := by
  cases f <;> exact ⟨_, _, rfl, by decide⟩

theorem slot_lt (f : Field) : Spec.slot f < 16 := by cases f <;> decide

theorem zipped_length : Mgf.zipped.length = 16 := rfl

/-- The untrimmed slice of a field. -/
def rawMat (raw : List F) (ni nj : Nat) (f : Field) : Mat F :=
  ⟨ni + 1, nj + 1, fun i j =>
    (((raw.take ((ni + 1) * (nj + 1) * (Spec.slot f + 1))).drop
      ((ni + 1) * (nj + 1) * Spec.slot f)).getD (i + j * (ni + 1)) Arith.zero)⟩

theorem flat_lt {ni nj i j : Nat} (hi : i < ni + 1) (hj : j < nj + 1) :
    i + j * (ni + 1) < (ni + 1) * (nj + 1) := by
  have : j * (ni + 1) ≤ nj * (ni + 1) := Nat.mul_le_mul_right _ (by omega)
  have e : (ni + 1) * (nj + 1) = nj * (ni + 1) + (ni + 1) := by
    rw [Nat.mul_comm, Nat.add_mul]; omega
  omega

theorem pos_lt {ni nj i j : Nat} (f : Field) (hi : i < ni + 1) (hj : j < nj + 1) :
    Spec.pos f ni nj i j < Spec.nDoubles ni nj := by
  have h1 := flat_lt hi hj
  have h2 := slot_lt f
  unfold Spec.pos Spec.nDoubles
  have : (Spec.slot f + 1) * ((ni + 1) * (nj + 1)) ≤ 16 * ((ni + 1) * (nj + 1)) :=
    Nat.mul_le_mul_right _ (by omega)
  rw [Nat.add_mul] at this
  omega

theorem rawMat_get (raw : List F) (ni nj : Nat) (f : Field) (i j : Nat) (hi : i < ni + 1)
    (hj : j < nj + 1) :
    (rawMat raw ni nj f).get i j = raw.getD (Spec.pos f ni nj i j) Arith.zero := by
  have hlt := flat_lt hi hj
  simp only [rawMat, List.getD_eq_getElem?_getD]
  rw [List.getElem?_drop, List.getElem?_take_of_lt]
  · congr 2; unfold Spec.pos; rw [Nat.mul_comm]
  · rw [Nat.mul_add _ (Spec.slot f) 1]; omega

theorem fieldMat_long (raw : List F) (ni nj : Nat) (strict : Bool) (x) (hx : x ∈ Mgf.zipped)
    (hlen : (ni + 1) * (nj + 1) * (Spec.slot x.1 + 1) ≤ raw.length) :
    fieldMat raw ni nj strict x =
      if strict && ((x.2.1 == 0 && anyRow (rawMat raw ni nj x.1) ni) ||
        (x.2.2 == 0 && anyCol (rawMat raw ni nj x.1) nj)) then .error .runtimeError
      else .ok ⟨Spec.nrows x.1 ni, Spec.ncols x.1 nj, (rawMat raw ni nj x.1).get⟩ := by
  obtain ⟨h1, h2, h3, h4, h5⟩ := zipped_mem x hx
  unfold fieldMat reshapeF
  rw [h1, if_pos (by rw [List.length_drop, List.length_take, Nat.min_eq_left hlen, Nat.mul_add]; omega)]
  simp only [bind, Except.bind]
  have e : ∀ g, (⟨ni + 1, nj + 1, g⟩ : Mat F).rows = ni + 1 := fun _ => rfl
  have r : min (ni + x.2.1) (ni + 1) = Spec.nrows x.1 ni := by rw [← h2]; omega
  have c : min (nj + x.2.2) (nj + 1) = Spec.ncols x.1 nj := by rw [← h3]; omega
  simp only [r, c]
  rfl

theorem fieldMat_short (raw : List F) (ni nj : Nat) (strict : Bool) (x) (hx : x ∈ Mgf.zipped)
    (hlen : raw.length < (ni + 1) * (nj + 1) * (Spec.slot x.1 + 1)) :
    fieldMat raw ni nj strict x = .error .valueError := by
  obtain ⟨h1, h2, h3, h4, h5⟩ := zipped_mem x hx
  unfold fieldMat reshapeF
  have : 0 < (ni + 1) * (nj + 1) := Nat.mul_pos (by omega) (by omega)
  rw [h1, if_neg (by rw [List.length_drop, List.length_take, Nat.min_eq_right (by omega)]
                     rw [Nat.mul_add] at hlen; omega)]
  rfl

/-! ### writing -/

theorem flattenF_length (m : Mat F) : (flattenF m).length = m.rows * m.cols := by
  unfold flattenF
  rw [length_flatMap_const _ _ m.rows (by simp)]
  simp [Nat.mul_comm]

theorem flattenF_get (m : Mat F) (i j : Nat) (hi : i < m.rows) (hj : j < m.cols) :
    (flattenF m)[i + j * m.rows]? = some (m.get i j) := by
  unfold flattenF
  rw [Nat.add_comm, getElem?_flatMap_const _ _ m.rows (by simp) j i hi]
  simp [hi, hj]

theorem assignEntry_shape {R C r c : Nat} {e : Entry F} {m : Mat F}
    (h : assignEntry R C r c e = .ok m) : m.rows = R ∧ m.cols = C := by
  cases e with
  | absent => cases h
  | none_ => cases h; exact ⟨rfl, rfl⟩
  | arr v =>
    simp only [assignEntry] at h
    split at h
    · cases h; exact ⟨rfl, rfl⟩
    · cases h

variable [F64 F]

/-- Doubles written for one field. -/
def enc (l : List F) : List Byte := l.flatMap fun v => beBytes (F64.toBits v)

theorem enc_append (a b : List F) : enc (a ++ b) = enc a ++ enc b := by simp [enc]

theorem enc_length (l : List F) : (enc l).length = l.length * 8 :=
  length_flatMap_const _ _ 8 (by intros; rfl)

/-- Successful prefix of the writer's loop. -/
theorem writeLoop_ok (g : Grid F) (ni nj : Nat) (xs : List (Field × Nat × Nat))
    (tmp : Field × Nat × Nat → Mat F)
    (h : ∀ x ∈ xs, assignEntry (ni + 1) (nj + 1) (ni + x.2.1) (nj + x.2.2) (g x.1) = .ok (tmp x))
    (ys : List (Field × Nat × Nat)) (file : List Byte) :
    writeLoop g ni nj (xs ++ ys) file =
      writeLoop g ni nj ys (file ++ enc (xs.flatMap fun x => flattenF (tmp x))) := by
  induction xs generalizing file with
  | nil => simp [enc]
  | cons a t ih =>
    obtain ⟨f, p, q⟩ := a
    have ha := h (f, p, q) (by simp)
    simp only at ha
    simp only [List.cons_append, writeLoop, fieldBytes]
    rw [ha]
    simp only [bind, Except.bind, pure, Except.pure]
    rw [ih (fun x hx => h x (by simp [hx]))]
    simp only [List.flatMap_cons, enc_append, List.append_assoc]
    rfl

theorem writeLoop_err (g : Grid F) (ni nj : Nat) (x) (e)
    (h : assignEntry (ni + 1) (nj + 1) (ni + x.2.1) (nj + x.2.2) (g x.1) = .error e)
    (ys : List (Field × Nat × Nat)) (file : List Byte) :
    writeLoop g ni nj (x :: ys) file = (file, .error e) := by
  obtain ⟨f, p, q⟩ := x
  simp only at h
  simp only [writeLoop, fieldBytes]
  rw [h]
  rfl

/-- The doubles of a whole written file. -/
theorem write_ok (old : List Byte) (g : Grid F) (ni nj : Nat) (tmp : Field × Nat × Nat → Mat F)
    (h : ∀ x ∈ Mgf.zipped,
      assignEntry (ni + 1) (nj + 1) (ni + x.2.1) (nj + x.2.2) (g x.1) = .ok (tmp x)) :
    writeMitgrid old g ni nj =
      (enc (Mgf.zipped.flatMap fun x => flattenF (tmp x)), .ok ()) := by
  unfold writeMitgrid
  have := writeLoop_ok g ni nj Mgf.zipped tmp h [] []
  rw [List.append_nil] at this
  rw [this]; simp [writeLoop]

theorem written_get (ni nj : Nat) (tmp : Field × Nat × Nat → Mat F)
    (hs : ∀ x ∈ Mgf.zipped, (tmp x).rows = ni + 1 ∧ (tmp x).cols = nj + 1)
    (f : Field) (i j : Nat) (hi : i < ni + 1) (hj : j < nj + 1) :
    ∃ a b, (f, a, b) ∈ Mgf.zipped ∧
      (Mgf.zipped.flatMap fun x => flattenF (tmp x))[Spec.pos f ni nj i j]? =
        some ((tmp (f, a, b)).get i j) := by
  obtain ⟨a, b, h1, h2⟩ := zipped_get f
  refine ⟨a, b, h2, ?_⟩
  unfold Spec.pos
  rw [getElem?_flatMap_const _ _ ((ni + 1) * (nj + 1)) (by
    intro x hx; rw [flattenF_length, (hs x hx).1, (hs x hx).2]) _ _ (flat_lt hi hj), h1]
  have e := hs _ h2
  have := flattenF_get (tmp (f, a, b)) i j (by omega) (by omega)
  rw [e.1] at this
  simpa using this

theorem written_length (ni nj : Nat) (tmp : Field × Nat × Nat → Mat F)
    (hs : ∀ x ∈ Mgf.zipped, (tmp x).rows = ni + 1 ∧ (tmp x).cols = nj + 1) :
    (Mgf.zipped.flatMap fun x => flattenF (tmp x)).length = Spec.nDoubles ni nj := by
  rw [length_flatMap_const _ _ ((ni + 1) * (nj + 1)) (by
    intro x hx; rw [flattenF_length, (hs x hx).1, (hs x hx).2]), zipped_length]; rfl

end

/-- `beDouble` of an encoded list. -/
theorem beDouble_enc {F : Type} [PyFloat F] [F64 F] (l : List F) (n : Nat) :
    Spec.beDouble (enc l) n = l[n]?.map fun v => (F64.toBits v).toNat := by
  unfold Spec.beDouble
  rw [enc_length]
  by_cases h : n < l.length
  · rw [if_pos (by omega)]
    have : ((enc l).drop (8 * n)).take 8 = beBytes (F64.toBits l[n]) := by
      have hl : l = l.take n ++ l[n] :: l.drop (n + 1) := by simp
      conv => lhs; rw [hl]
      rw [enc_append, List.drop_append, List.drop_of_length_le (by
        rw [enc_length, List.length_take]; omega), enc_length, List.length_take]
      have : 8 * n - min n l.length * 8 = 0 := by omega
      rw [this, List.drop_zero, List.nil_append]
      simp only [enc, List.flatMap_cons]
      rw [List.take_append_of_le_length (by simp [beBytes]), List.take_of_length_le (by simp [beBytes])]
    rw [this, List.getElem?_eq_getElem h]
    simp only [Option.map_some]
    congr 1
    have := ofBE_toNat ((F64.toBits l[n]).extractLsb' 56 8) ((F64.toBits l[n]).extractLsb' 48 8)
      ((F64.toBits l[n]).extractLsb' 40 8) ((F64.toBits l[n]).extractLsb' 32 8)
      ((F64.toBits l[n]).extractLsb' 24 8) ((F64.toBits l[n]).extractLsb' 16 8)
      ((F64.toBits l[n]).extractLsb' 8 8) ((F64.toBits l[n]).extractLsb' 0 8)
    rw [ofBE_beBytes] at this
    exact this.symm
  · rw [if_neg (by omega), List.getElem?_eq_none (by omega)]; rfl

end SG
