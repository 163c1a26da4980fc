import Verif.Lemmas.GridIO
/-! # C01–C09: reading and writing `.mitgrid` files -/

set_option linter.unusedSectionVars false

namespace SG
variable {F : Type} [PyFloat F] [F64 F]

/-! ### helpers shared by the statements below -/

/-- A byte string holds at least `n` complete doubles. -/
def Spec.Holds (bytes : List Byte) (n : Nat) : Prop := 8 * n ≤ bytes.length

/-- The double at index `n` of a file. -/
def Spec.doubleAt (F : Type) [F64 F] (bytes : List Byte) (n : Nat) : Option F :=
  (Spec.beDouble bytes n).map fun v => F64.ofBits (BitVec.ofNat 64 v)

/-- Some padding entry of some field is nonzero: an entry of the trailing row of a field that has only
`ni` rows, or of the trailing column of a field that has only `nj` columns. -/
def Spec.DirtyPadding (F : Type) [PyFloat F] [F64 F] (bytes : List Byte) (ni nj : Nat) : Prop :=
  ∃ f i j, i ≤ ni ∧ j ≤ nj ∧ (Spec.nrows f ni ≤ i ∨ Spec.ncols f nj ≤ j) ∧
    ∃ v : F, Spec.doubleAt F bytes (Spec.pos f ni nj i j) = some v ∧ PyFloat.isZero v = false

theorem doubleAt_eq (bytes : List Byte) (n : Nat) (h : 8 * n + 8 ≤ bytes.length) :
    Spec.doubleAt F bytes n = some ((fromfile bytes : List F).getD n Arith.zero) := by
  unfold Spec.doubleAt
  rw [← fromfile_get, List.getD_eq_getElem?_getD,
    List.getElem?_eq_getElem (by rw [fromfile_length]; omega)]
  rfl

theorem strictCond_iff (bytes : List Byte) (ni nj : Nat)
    (h : Spec.Holds bytes (Spec.nDoubles ni nj)) (x) (hx : x ∈ Mgf.zipped) :
    ((x.2.1 == 0 && anyRow (rawMat (fromfile bytes : List F) ni nj x.1) ni) ||
      (x.2.2 == 0 && anyCol (rawMat (fromfile bytes : List F) ni nj x.1) nj)) = true ↔
    ∃ i j, i ≤ ni ∧ j ≤ nj ∧ (Spec.nrows x.1 ni ≤ i ∨ Spec.ncols x.1 nj ≤ j) ∧
      ∃ v : F, Spec.doubleAt F bytes (Spec.pos x.1 ni nj i j) = some v ∧ PyFloat.isZero v = false := by
  obtain ⟨_, h2, h3, h4, h5⟩ := zipped_mem x hx
  have h2 := h2 ni; have h3 := h3 nj
  unfold Spec.Holds at h
  have key : ∀ i j, i ≤ ni → j ≤ nj → Spec.doubleAt F bytes (Spec.pos x.1 ni nj i j) =
      some ((rawMat (fromfile bytes : List F) ni nj x.1).get i j) := by
    intro i j hi hj
    have := pos_lt (ni := ni) (nj := nj) (i := i) (j := j) x.1 (by omega) (by omega)
    rw [doubleAt_eq _ _ (by omega), rawMat_get _ _ _ _ _ _ (by omega) (by omega)]
  have hr : (rawMat (fromfile bytes : List F) ni nj x.1).rows = ni + 1 := rfl
  have hc : (rawMat (fromfile bytes : List F) ni nj x.1).cols = nj + 1 := rfl
  constructor
  · intro hh
    simp only [Bool.or_eq_true, Bool.and_eq_true, beq_iff_eq, anyRow, anyCol, List.any_eq_true,
      List.mem_range, truthy, Bool.not_eq_true', hr, hc] at hh
    rcases hh with ⟨h0, j, hj, hz⟩ | ⟨h0, i, hi, hz⟩
    · exact ⟨ni, j, by omega, by omega, by omega, _, key _ _ (by omega) (by omega), hz⟩
    · exact ⟨i, nj, by omega, by omega, by omega, _, key _ _ (by omega) (by omega), hz⟩
  · rintro ⟨i, j, hi, hj, hor, v, hv, hz⟩
    rw [key i j hi hj] at hv
    cases hv
    simp only [Bool.or_eq_true, Bool.and_eq_true, beq_iff_eq, anyRow, anyCol, List.any_eq_true,
      List.mem_range, truthy, Bool.not_eq_true', hr, hc]
    rcases hor with h | h
    · left; refine ⟨by omega, j, by omega, ?_⟩
      have : i = ni := by omega
      subst this; exact hz
    · right; refine ⟨by omega, i, by omega, ?_⟩
      have : j = nj := by omega
      subst this; exact hz

theorem slice_le (bytes : List Byte) (ni nj : Nat) (h : Spec.Holds bytes (Spec.nDoubles ni nj))
    (f : Field) : (ni + 1) * (nj + 1) * (Spec.slot f + 1) ≤ (fromfile bytes : List F).length := by
  rw [fromfile_length]
  unfold Spec.Holds Spec.nDoubles at h
  have := slot_lt f
  have : (ni + 1) * (nj + 1) * (Spec.slot f + 1) ≤ (ni + 1) * (nj + 1) * 16 :=
    Nat.mul_le_mul_left _ (by omega)
  omega

/-! ### C03 -/

/-- **C03**: non-strict reading succeeds on every file with enough doubles, and every element returned
is the big-endian double at its documented position. -/
theorem C03_read_positional (bytes : List Byte) (ni nj : Nat)
    (h : Spec.Holds bytes (Spec.nDoubles ni nj)) :
    ∃ g : Grid F, readMitgrid bytes ni nj false = .ok g ∧ Spec.Complete g ni nj ∧
      ∀ f m, g f = .arr m → ∀ i j, i < Spec.nrows f ni → j < Spec.ncols f nj →
        Spec.doubleAt F bytes (Spec.pos f ni nj i j) = some (m.get i j) := by
  have hr := read_ok (fromfile bytes : List F) ni nj false Mgf.zipped
    (fun f => ⟨Spec.nrows f ni, Spec.ncols f nj, (rawMat (fromfile bytes : List F) ni nj f).get⟩)
    (fun x hx => by rw [fieldMat_long _ _ _ _ _ hx (slice_le bytes ni nj h x.1)]; simp) Grid.empty
  refine ⟨_, hr, ?_, ?_⟩
  · intro f; exact ⟨_, if_pos (mem_zipped_names f), rfl, rfl⟩
  · intro f m hm i j hi hj
    rw [if_pos (mem_zipped_names f)] at hm
    cases hm
    have hi' : i < ni + 1 := by cases f <;> simp [Spec.nrows] at hi <;> omega
    have hj' : j < nj + 1 := by cases f <;> simp [Spec.ncols] at hj <;> omega
    have := pos_lt (ni := ni) (nj := nj) f hi' hj'
    unfold Spec.Holds at h
    rw [doubleAt_eq _ _ (by omega)]
    simp only [rawMat_get _ _ _ _ _ _ hi' hj']

/-- **C03** (second part): bytes past `16*(ni+1)*(nj+1)` doubles do not influence the result, in either
mode. -/
theorem C03_trailing_bytes_ignored (bytes extra : List Byte) (ni nj : Nat) (strict : Bool)
    (h : Spec.Holds bytes (Spec.nDoubles ni nj)) :
    (readMitgrid (bytes ++ extra) ni nj strict : Py (Grid F)) = readMitgrid bytes ni nj strict := by
  have hh : Spec.Holds (bytes ++ extra) (Spec.nDoubles ni nj) := by
    unfold Spec.Holds at *; rw [List.length_append]; omega
  have hget : ∀ n, n < Spec.nDoubles ni nj →
      (fromfile (bytes ++ extra) : List F).getD n Arith.zero =
        (fromfile bytes : List F).getD n Arith.zero := by
    intro n hn
    unfold Spec.Holds at h
    simp only [List.getD_eq_getElem?_getD, fromfile_get, Spec.beDouble, List.length_append]
    rw [if_pos (by omega), if_pos (by omega), List.drop_append_of_le_length (by omega),
      List.take_append_of_le_length (by rw [List.length_drop]; omega)]
  have hseg : ∀ f : Field,
      (((fromfile (bytes ++ extra) : List F).take ((ni + 1) * (nj + 1) * (Spec.slot f + 1))).drop
        ((ni + 1) * (nj + 1) * Spec.slot f)) =
      (((fromfile bytes : List F).take ((ni + 1) * (nj + 1) * (Spec.slot f + 1))).drop
        ((ni + 1) * (nj + 1) * Spec.slot f)) := by
    intro f
    have l1 := slice_le (F := F) bytes ni nj h f
    have l2 := slice_le (F := F) (bytes ++ extra) ni nj hh f
    congr 1
    apply List.ext_getElem
    · rw [List.length_take, List.length_take]; omega
    · intro n h1 h2
      rw [List.length_take] at h1 h2
      have hn : n < Spec.nDoubles ni nj := by
        unfold Spec.nDoubles
        have := slot_lt f
        have : (ni + 1) * (nj + 1) * (Spec.slot f + 1) ≤ (ni + 1) * (nj + 1) * 16 :=
          Nat.mul_le_mul_left _ (by omega)
        omega
      have := hget n hn
      rw [List.getD_eq_getElem?_getD, List.getD_eq_getElem?_getD,
        List.getElem?_eq_getElem (by omega), List.getElem?_eq_getElem (by omega)] at this
      simpa using this
  have : ∀ f : Field, rawMat (fromfile (bytes ++ extra) : List F) ni nj f =
      rawMat (fromfile bytes : List F) ni nj f := by
    intro f; simp only [rawMat, hseg]
  unfold readMitgrid
  have step : ∀ xs : List (Field × Nat × Nat), (∀ x ∈ xs, x ∈ Mgf.zipped) → ∀ g : Grid F,
      xs.foldlM (readField (fromfile (bytes ++ extra)) ni nj strict) g =
      xs.foldlM (readField (fromfile bytes) ni nj strict) g := by
    intro xs
    induction xs with
    | nil => intros; rfl
    | cons a t ih =>
      intro hx g
      have ha := hx a (by simp)
      simp only [List.foldlM_cons, readField_eq]
      rw [fieldMat_long _ _ _ _ _ ha (slice_le _ ni nj hh _),
        fieldMat_long _ _ _ _ _ ha (slice_le _ ni nj h _), this]
      congr 1
      funext g'
      exact ih (fun x hx' => hx x (by simp [hx'])) g'
  exact step _ (fun _ h => h) _

/-! ### C04 -/

/-- **C04**: a file with fewer complete doubles than required is never accepted;
without `strict` the exception is always `ValueError`. -/
theorem C04_short_file_raises (bytes : List Byte) (ni nj : Nat) (strict : Bool)
    (h : bytes.length < 8 * Spec.nDoubles ni nj) :
    ∃ e, (readMitgrid bytes ni nj strict : Py (Grid F)) = .error e ∧
      (strict = false → e = .valueError) := by
  have hx : (Field.DYG, 1, 0) ∈ Mgf.zipped := by decide
  obtain ⟨y, hy, e, he, hr⟩ := read_err (fromfile bytes : List F) ni nj strict Mgf.zipped _ hx
    .valueError (fieldMat_short _ _ _ _ _ hx (by
      rw [fromfile_length]
      unfold Spec.nDoubles at h
      show _ < (ni + 1) * (nj + 1) * 16
      omega)) Grid.empty
  refine ⟨e, hr, ?_⟩
  rintro rfl
  by_cases hl : (ni + 1) * (nj + 1) * (Spec.slot y.1 + 1) ≤ (fromfile bytes : List F).length
  · rw [fieldMat_long _ _ _ _ _ hy hl] at he
    simp at he
  · rw [fieldMat_short _ _ _ _ _ hy (by omega)] at he
    cases he; rfl

/-! ### C05, C06 -/

/-- **C05**: on a long enough file, strict reading raises `RuntimeError` exactly when some padding
entry is nonzero, and succeeds otherwise. -/
theorem C05_strict_iff (bytes : List Byte) (ni nj : Nat)
    (h : Spec.Holds bytes (Spec.nDoubles ni nj)) :
    ((readMitgrid bytes ni nj true : Py (Grid F)) = .error .runtimeError ↔
      Spec.DirtyPadding F bytes ni nj) ∧
    (¬ Spec.DirtyPadding F bytes ni nj →
      ∃ g : Grid F, readMitgrid bytes ni nj true = .ok g) := by
  by_cases hd : Spec.DirtyPadding F bytes ni nj
  · refine ⟨⟨fun _ => hd, fun _ => ?_⟩, fun hn => absurd hd hn⟩
    obtain ⟨f, hf⟩ := hd
    obtain ⟨a, b, _, hx⟩ := zipped_get f
    have hc := (strictCond_iff (F := F) bytes ni nj h _ hx).2 hf
    obtain ⟨y, hy, e, he, hr⟩ := read_err (fromfile bytes : List F) ni nj true Mgf.zipped _ hx
      .runtimeError (by
        rw [fieldMat_long _ _ _ _ _ hx (slice_le _ _ _ h _), Bool.true_and, if_pos hc]) Grid.empty
    rw [fieldMat_long _ _ _ _ _ hy (slice_le _ _ _ h _)] at he
    split at he
    · cases he; exact hr
    · cases he
  · have hok : ∃ g : Grid F, readMitgrid bytes ni nj true = .ok g := by
      refine ⟨_, read_ok (fromfile bytes : List F) ni nj true Mgf.zipped
        (fun f => ⟨Spec.nrows f ni, Spec.ncols f nj, (rawMat (fromfile bytes : List F) ni nj f).get⟩)
        (fun x hx => ?_) Grid.empty⟩
      rw [fieldMat_long _ _ _ _ _ hx (slice_le _ _ _ h _), if_neg]
      rw [Bool.true_and, strictCond_iff bytes ni nj h x hx]
      exact fun hh => hd ⟨x.1, hh⟩
    refine ⟨⟨fun hr => ?_, fun hh => absurd hh hd⟩, fun _ => hok⟩
    obtain ⟨g, hg⟩ := hok
    rw [hg] at hr; cases hr

/-- **C06**: whenever strict reading succeeds, non-strict reading returns the identical grid. -/
theorem C06_strict_changes_no_data (bytes : List Byte) (ni nj : Nat) (g : Grid F)
    (h : readMitgrid bytes ni nj true = .ok g) : readMitgrid bytes ni nj false = .ok g := by
  have hl : Spec.Holds bytes (Spec.nDoubles ni nj) := by
    by_cases hl : Spec.Holds bytes (Spec.nDoubles ni nj)
    · exact hl
    · unfold Spec.Holds at hl
      obtain ⟨e, he, _⟩ := C04_short_file_raises (F := F) bytes ni nj true (by omega)
      rw [he] at h; cases h
  let m : Field → Mat F := fun f =>
    ⟨Spec.nrows f ni, Spec.ncols f nj, (rawMat (fromfile bytes : List F) ni nj f).get⟩
  have hs : ∀ x ∈ Mgf.zipped, fieldMat (fromfile bytes : List F) ni nj true x = .ok (m x.1) := by
    intro x hx
    cases hc : fieldMat (fromfile bytes : List F) ni nj true x with
    | error e =>
      obtain ⟨y, _, e', _, hr⟩ := read_err _ _ _ _ Mgf.zipped x hx e hc Grid.empty
      unfold readMitgrid at h
      simp only at h
      rw [hr] at h; cases h
    | ok a =>
      rw [fieldMat_long _ _ _ _ _ hx (slice_le _ _ _ hl _)] at hc
      split at hc
      · cases hc
      · cases hc; rfl
  have hn : ∀ x ∈ Mgf.zipped, fieldMat (fromfile bytes : List F) ni nj false x = .ok (m x.1) := by
    intro x hx
    rw [fieldMat_long _ _ _ _ _ hx (slice_le _ _ _ hl _)]; rfl
  unfold readMitgrid at *
  simp only at *
  rw [read_ok _ _ _ _ _ m hs] at h
  rw [read_ok _ _ _ _ _ m hn]; exact h

/-! ### C01, C02, C08 -/

/-- What a written file must contain at `(i,j)` of the slice of field `f`: the array element (of an array with a single row or column: that row or
column, repeated), NaN for `None`, zero in the padding. -/
def Spec.stored (g : Grid F) (ni nj : Nat) (f : Field) (i j : Nat) : Option F :=
  if i < Spec.nrows f ni ∧ j < Spec.ncols f nj then
    match g f with
    | .absent => none
    | .none_ => some PyFloat.nan
    | .arr m => some (m.get (if m.rows = 1 then 0 else i) (if m.cols = 1 then 0 else j))
  else some Arith.zero

/-- A field that can be stored: `None`, an array of the documented size, or one with a single row or column (or both) in place of all. -/
def Spec.FitsSlot (g : Grid F) (ni nj : Nat) (f : Field) : Prop :=
  g f = .none_ ∨ ∃ m, g f = .arr m ∧ (m.rows = Spec.nrows f ni ∨ m.rows = 1) ∧ (m.cols = Spec.ncols f nj ∨ m.cols = 1)

/-- A grid all of whose fields can be stored. -/
def Spec.Writable (g : Grid F) (ni nj : Nat) : Prop := ∀ f, Spec.FitsSlot g ni nj f

theorem Spec.Complete.writable {g : Grid F} {ni nj : Nat} (h : Spec.Complete g ni nj) :
    Spec.Writable g ni nj := fun f => .inr (have ⟨m, h1, h2, h3⟩ := h f; ⟨m, h1, .inl h2, .inl h3⟩)

/-- For an array of the documented size it is the element. -/
theorem Spec.stored_full {g : Grid F} {ni nj : Nat} {f : Field} {m : Mat F} (h : g f = .arr m) (hr : m.rows = Spec.nrows f ni)
    (hc : m.cols = Spec.ncols f nj) {i j : Nat} (hi : i < Spec.nrows f ni) (hj : j < Spec.ncols f nj) :
    Spec.stored g ni nj f i j = some (m.get i j) := by
  rw [Spec.stored, if_pos ⟨hi, hj⟩, h]
  have e1 : (if m.rows = 1 then 0 else i) = i := by split <;> omega
  have e2 : (if m.cols = 1 then 0 else j) = j := by split <;> omega
  simp only [e1, e2]

theorem assign_ok (g : Grid F) (ni nj : Nat) (hg : Spec.Writable g ni nj) :
    ∃ tmp : Field × Nat × Nat → Mat F, ∀ x ∈ Mgf.zipped,
      assignEntry (ni + 1) (nj + 1) (ni + x.2.1) (nj + x.2.2) (g x.1) = .ok (tmp x) ∧
      ∀ i j, Spec.stored g ni nj x.1 i j = some ((tmp x).get i j) := by
  have H : ∀ x : Field × Nat × Nat, ∃ m : Mat F, x ∈ Mgf.zipped →
      assignEntry (ni + 1) (nj + 1) (ni + x.2.1) (nj + x.2.2) (g x.1) = .ok m ∧
      ∀ i j, Spec.stored g ni nj x.1 i j = some (m.get i j) := by
    intro x
    by_cases hx : x ∈ Mgf.zipped
    · obtain ⟨_, h2, h3, _, _⟩ := zipped_mem x hx
      rw [h2 ni, h3 nj]
      rcases hg x.1 with h | ⟨m, h, hr, hc⟩
      · rw [h]
        refine ⟨_, fun _ => ⟨rfl, fun i j => ?_⟩⟩
        simp only [Spec.stored, h]
        split <;> rfl
      · rw [h]
        simp only [assignEntry, if_pos (And.intro hr hc)]
        refine ⟨_, fun _ => ⟨rfl, fun i j => ?_⟩⟩
        simp only [Spec.stored, h]
        split
        · rename_i hij
          have e1 : (if m.rows = 1 then 0 else i) = (if m.rows = Spec.nrows x.1 ni then i else 0) := by split <;> split <;> omega
          have e2 : (if m.cols = 1 then 0 else j) = (if m.cols = Spec.ncols x.1 nj then j else 0) := by split <;> split <;> omega
          rw [e1, e2]
        · rfl
    · exact ⟨⟨0, 0, fun _ _ => Arith.zero⟩, fun h => absurd h hx⟩
  exact ⟨fun x => (H x).choose, fun x hx => (H x).choose_spec hx⟩

/-- **C02**: a write of a grid succeeds, its length is exactly `16*(ni+1)*(nj+1)*8`, and the big-endian
double at the documented position of every element of every slice is the array element (zero in the
padding, NaN for `None`), whatever the file contained before. -/
theorem C02_byte_layout (old : List Byte) (g : Grid F) (ni nj : Nat) (hg : Spec.Writable g ni nj) :
    ∃ bytes, writeMitgrid old g ni nj = (bytes, .ok ()) ∧
      bytes.length = 8 * Spec.nDoubles ni nj ∧
      ∀ f i j, i ≤ ni → j ≤ nj →
        Spec.beDouble bytes (Spec.pos f ni nj i j) =
          (Spec.stored g ni nj f i j).map fun v => (F64.toBits v).toNat := by
  obtain ⟨tmp, ht⟩ := assign_ok g ni nj hg
  have hs : ∀ x ∈ Mgf.zipped, (tmp x).rows = ni + 1 ∧ (tmp x).cols = nj + 1 :=
    fun x hx => assignEntry_shape (ht x hx).1
  refine ⟨_, write_ok old g ni nj tmp (fun x hx => (ht x hx).1), ?_, ?_⟩
  · rw [enc_length, written_length ni nj tmp hs, Nat.mul_comm]
  · intro f i j hi hj
    obtain ⟨a, b, hx, hget⟩ := written_get ni nj tmp hs f i j (by omega) (by omega)
    rw [beDouble_enc, hget, (ht _ hx).2]

/-- Reading back what was written, for grids that may contain `None` (**C01** and **C08**). -/
theorem read_written [LawfulF64 F] (hz : PyFloat.isZero (Arith.zero : F) = true)
    (old : List Byte) (g : Grid F) (ni nj : Nat) (strict : Bool) (hg : Spec.Writable g ni nj) :
    ∃ bytes g', writeMitgrid old g ni nj = (bytes, .ok ()) ∧
      readMitgrid bytes ni nj strict = .ok g' ∧ Spec.Complete g' ni nj ∧
      ∀ f m, g' f = .arr m → ∀ i j, i < Spec.nrows f ni → j < Spec.ncols f nj →
        Spec.stored g ni nj f i j = some (m.get i j) := by
  obtain ⟨bytes, hw, hlen, hget⟩ := C02_byte_layout old g ni nj hg
  have hdbl : ∀ f i j, i ≤ ni → j ≤ nj →
      Spec.doubleAt F bytes (Spec.pos f ni nj i j) = Spec.stored g ni nj f i j := by
    intro f i j hi hj
    unfold Spec.doubleAt
    rw [hget f i j hi hj, Option.map_map]
    cases Spec.stored g ni nj f i j with
    | none => rfl
    | some v => simp [LawfulF64.ofBits_toBits]
  have hh : Spec.Holds bytes (Spec.nDoubles ni nj) := by unfold Spec.Holds; omega
  obtain ⟨g', hr, hc, hv⟩ := C03_read_positional (F := F) bytes ni nj hh
  have hclean : ¬ Spec.DirtyPadding F bytes ni nj := by
    rintro ⟨f, i, j, hi, hj, hor, v, hv, hnz⟩
    rw [hdbl f i j hi hj, Spec.stored, if_neg (by omega)] at hv
    cases hv
    rw [hz] at hnz; cases hnz
  have hstrict : readMitgrid bytes ni nj strict = .ok g' := by
    cases strict with
    | false => exact hr
    | true =>
      obtain ⟨g'', hg''⟩ := (C05_strict_iff (F := F) bytes ni nj hh).2 hclean
      have := C06_strict_changes_no_data bytes ni nj g'' hg''
      rw [hr] at this
      cases this; exact hg''
  refine ⟨bytes, g', hw, hstrict, hc, fun f m hm i j hi hj => ?_⟩
  have hi' : i ≤ ni := by cases f <;> simp [Spec.nrows] at hi <;> omega
  have hj' : j ≤ nj := by cases f <;> simp [Spec.ncols] at hj <;> omega
  rw [← hdbl f i j hi' hj']
  exact hv f m hm i j hi hj

/-- **C01**: writing a complete grid and reading it back, strictly or not, returns the same grid. -/
theorem C01_round_trip [LawfulF64 F] (hz : PyFloat.isZero (Arith.zero : F) = true)
    (old : List Byte) (g : Grid F) (ni nj : Nat) (strict : Bool) (hg : Spec.Complete g ni nj) :
    ∃ bytes g', writeMitgrid old g ni nj = (bytes, .ok ()) ∧
      readMitgrid bytes ni nj strict = .ok g' ∧ Spec.GridSame g g' := by
  obtain ⟨bytes, g', hw, hr, hc, hv⟩ := read_written hz old g ni nj strict hg.writable
  refine ⟨bytes, g', hw, hr, fun f => ?_⟩
  obtain ⟨m, h1, h2, h3⟩ := hg f
  obtain ⟨m', h1', h2', h3'⟩ := hc f
  rw [h1, h1']
  refine ⟨by omega, by omega, fun i j hi hj => ?_⟩
  have := hv f m' h1' i j (by omega) (by omega)
  rw [Spec.stored_full h1 h2 h3 (by omega) (by omega)] at this
  simpa using this

/-- **C08**: a `None` field comes back as an array of the documented size full of NaN. -/
theorem C08_none_becomes_nan [LawfulF64 F] (hz : PyFloat.isZero (Arith.zero : F) = true)
    (old : List Byte) (g : Grid F) (ni nj : Nat) (strict : Bool) (hg : Spec.Writable g ni nj)
    (f : Field) (hf : g f = .none_) :
    ∃ (bytes : List Byte) (g' : Grid F) (m : Mat F), writeMitgrid old g ni nj = (bytes, .ok ()) ∧
      readMitgrid bytes ni nj strict = .ok g' ∧ g' f = .arr m ∧
      m.rows = Spec.nrows f ni ∧ m.cols = Spec.ncols f nj ∧
      ∀ i j, i < m.rows → j < m.cols → m.get i j = PyFloat.nan := by
  obtain ⟨bytes, g', hw, hr, hc, hv⟩ := read_written hz old g ni nj strict hg
  obtain ⟨m, h1, h2, h3⟩ := hc f
  refine ⟨bytes, g', m, hw, hr, h1, h2, h3, fun i j hi hj => ?_⟩
  have := hv f m h1 i j (by omega) (by omega)
  rw [Spec.stored, if_pos ⟨by omega, by omega⟩, hf] at this
  simpa using this.symm

/-- **C04** (crash safety): a writer killed after any strict prefix of its bytes leaves a file that the
reader rejects. -/
theorem C04_torn_write_rejected (old : List Byte) (g : Grid F) (ni nj : Nat) (strict : Bool)
    (hg : Spec.Writable g ni nj) (n : Nat)
    (hn : n < (writeMitgrid old g ni nj).1.length) :
    ∃ e, (readMitgrid ((writeMitgrid old g ni nj).1.take n) ni nj strict : Py (Grid F)) =
      .error e := by
  obtain ⟨bytes, hw, hlen, _⟩ := C02_byte_layout (F := F) old g ni nj hg
  rw [hw] at hn ⊢
  simp only at hn ⊢
  obtain ⟨e, he, _⟩ := C04_short_file_raises (F := F) (bytes.take n) ni nj strict (by
    rw [List.length_take]; omega)
  exact ⟨e, he⟩

/-! ### C07 -/

/-- A field the writer cannot store: name missing, or array that numpy cannot broadcast. -/
def Spec.Unwritable (g : Grid F) (ni nj : Nat) (f : Field) : Prop :=
  g f = .absent ∨ ∃ m, g f = .arr m ∧
    ((m.rows ≠ Spec.nrows f ni ∧ m.rows ≠ 1) ∨ (m.cols ≠ Spec.ncols f nj ∧ m.cols ≠ 1))

/-- **C07**: when the first field that cannot be written is `f`, the write raises, the file holds exactly
the complete slices of the fields before `f` (each at its documented position) and nothing of the
previous contents, and reading it with the same sizes raises. -/
theorem C07_failed_write (old : List Byte) (g : Grid F) (ni nj : Nat) (strict : Bool) (f : Field)
    (hf : Spec.Unwritable g ni nj f)
    (hbefore : ∀ f', Spec.slot f' < Spec.slot f → Spec.FitsSlot g ni nj f') :
    ∃ bytes e, writeMitgrid old g ni nj = (bytes, .error e) ∧
      bytes.length = 8 * (Spec.slot f * ((ni + 1) * (nj + 1))) ∧
      (∀ f' i j, Spec.slot f' < Spec.slot f → i ≤ ni → j ≤ nj →
        Spec.beDouble bytes (Spec.pos f' ni nj i j) =
          (Spec.stored g ni nj f' i j).map fun v => (F64.toBits v).toNat) ∧
      ∃ e', (readMitgrid bytes ni nj strict : Py (Grid F)) = .error e' := by
  -- replace later fields by `None` to reuse the layout of a successful write
  let g0 : Grid F := fun f' => if Spec.slot f' < Spec.slot f then g f' else .none_
  have hg0 : Spec.Writable g0 ni nj := by
    intro f'
    by_cases h : Spec.slot f' < Spec.slot f
    · simpa [Spec.FitsSlot, g0, h] using hbefore f' h
    · simp [Spec.FitsSlot, g0, h]
  obtain ⟨tmp, ht⟩ := assign_ok g0 ni nj hg0
  have hsplit : Mgf.zipped = Mgf.zipped.take (Spec.slot f) ++ Mgf.zipped.drop (Spec.slot f) := by simp
  obtain ⟨a, b, hfz, hfm⟩ := zipped_get f
  have hpre : ∀ x ∈ Mgf.zipped.take (Spec.slot f), Spec.slot x.1 < Spec.slot f := by
    cases f <;> decide
  have hmem : ∀ x ∈ Mgf.zipped.take (Spec.slot f), x ∈ Mgf.zipped :=
    fun x hx => List.mem_of_mem_take hx
  have hdrop : Mgf.zipped.drop (Spec.slot f) =
      (f, a, b) :: Mgf.zipped.drop (Spec.slot f + 1) := by
    rw [List.drop_eq_getElem_cons (by rw [zipped_length]; exact slot_lt f)]
    congr 1
    have := List.getElem?_eq_getElem (l := Mgf.zipped) (i := Spec.slot f)
      (by rw [zipped_length]; exact slot_lt f)
    rw [hfz] at this
    exact (Option.some.inj this).symm
  obtain ⟨e, he⟩ : ∃ e, assignEntry (ni + 1) (nj + 1) (ni + a) (nj + b) (g f) = .error e := by
    obtain ⟨_, h2, h3, _, _⟩ := zipped_mem _ hfm
    have h2 := h2 ni; have h3 := h3 nj
    simp only at h2 h3
    rcases hf with h | ⟨m, h, hs⟩
    · exact ⟨.keyError, by rw [h]; rfl⟩
    · refine ⟨.valueError, ?_⟩
      rw [h]; simp only [assignEntry, h2, h3]
      rw [if_neg (by omega)]
  have hw : writeMitgrid old g ni nj =
      (enc ((Mgf.zipped.take (Spec.slot f)).flatMap fun x => flattenF (tmp x)), .error e) := by
    unfold writeMitgrid
    conv => lhs; rw [hsplit]
    rw [writeLoop_ok g ni nj _ tmp (fun x hx => by
      have := (ht x (hmem x hx)).1
      simpa [g0, hpre x hx] using this)]
    rw [hdrop, writeLoop_err g ni nj (f, a, b) e he]
    simp
  have hs : ∀ x ∈ Mgf.zipped.take (Spec.slot f), (flattenF (tmp x)).length = (ni + 1) * (nj + 1) := by
    intro x hx
    have := assignEntry_shape (ht x (hmem x hx)).1
    rw [flattenF_length, this.1, this.2]
  have hlen : (enc ((Mgf.zipped.take (Spec.slot f)).flatMap fun x => flattenF (tmp x))).length =
      8 * (Spec.slot f * ((ni + 1) * (nj + 1))) := by
    have := slot_lt f
    rw [enc_length, length_flatMap_const _ _ _ hs, List.length_take, zipped_length,
      Nat.min_eq_left (by omega)]
    omega
  refine ⟨_, e, hw, hlen, ?_, ?_⟩
  · intro f' i j hlt hi hj
    obtain ⟨a', b', h1, h2⟩ := zipped_get f'
    have hfl := flat_lt (ni := ni) (nj := nj) (i := i) (j := j) (by omega) (by omega)
    rw [beDouble_enc]
    unfold Spec.pos
    rw [getElem?_flatMap_const _ _ _ hs _ _ hfl, List.getElem?_take_of_lt hlt, h1]
    have sh := assignEntry_shape (ht _ h2).1
    have := flattenF_get (tmp (f', a', b')) i j (by omega) (by omega)
    rw [sh.1] at this
    simp only [Option.bind_some, this]
    rw [← (ht _ h2).2 i j]
    simp only [Spec.stored, g0, hlt, if_true]
  · obtain ⟨e', he', _⟩ := C04_short_file_raises (F := F)
      (enc ((Mgf.zipped.take (Spec.slot f)).flatMap fun x => flattenF (tmp x))) ni nj strict (by
        rw [hlen]; unfold Spec.nDoubles
        have := slot_lt f
        have hp : 0 < (ni + 1) * (nj + 1) := Nat.mul_pos (by omega) (by omega)
        have := Nat.mul_lt_mul_of_pos_right this hp
        omega)
    exact ⟨e', he'⟩

/-! ### C09 -/

/-- **C09**: writing what was read reproduces the file, when it has exactly the required length and its
padding entries are `+0.0`. -/
theorem C09_read_then_write [LawfulF64 F] (bytes old : List Byte) (ni nj : Nat)
    (hlen : bytes.length = 8 * Spec.nDoubles ni nj)
    (hpad : ∀ f i j, i ≤ ni → j ≤ nj → (Spec.nrows f ni ≤ i ∨ Spec.ncols f nj ≤ j) →
      Spec.doubleAt F bytes (Spec.pos f ni nj i j) = some Arith.zero) :
    ∃ g : Grid F, readMitgrid bytes ni nj false = .ok g ∧
      writeMitgrid old g ni nj = (bytes, .ok ()) := by
  have hh : Spec.Holds bytes (Spec.nDoubles ni nj) := by unfold Spec.Holds; omega
  obtain ⟨g, hr, hc, hv⟩ := C03_read_positional (F := F) bytes ni nj hh
  refine ⟨g, hr, ?_⟩
  obtain ⟨tmp, ht⟩ := assign_ok g ni nj hc.writable
  have hs : ∀ x ∈ Mgf.zipped, (tmp x).rows = ni + 1 ∧ (tmp x).cols = nj + 1 :=
    fun x hx => assignEntry_shape (ht x hx).1
  rw [write_ok old g ni nj tmp (fun x hx => (ht x hx).1)]
  congr 1
  have hfl : (Mgf.zipped.flatMap fun x => flattenF (tmp x)) = (fromfile bytes : List F) := by
    apply List.ext_getElem?
    intro n
    by_cases hn : n < Spec.nDoubles ni nj
    · -- decompose n
      have hp : 0 < (ni + 1) * (nj + 1) := Nat.mul_pos (by omega) (by omega)
      let k := n / ((ni + 1) * (nj + 1))
      let r := n % ((ni + 1) * (nj + 1))
      let i := r % (ni + 1)
      let j := r / (ni + 1)
      have hk : k < 16 := by
        unfold Spec.nDoubles at hn
        exact Nat.div_lt_of_lt_mul (by rw [Nat.mul_comm]; exact hn)
      have hi : i < ni + 1 := Nat.mod_lt _ (by omega)
      have hj : j < nj + 1 := Nat.div_lt_of_lt_mul (Nat.mod_lt _ hp)
      obtain ⟨f, hf⟩ : ∃ f, Spec.slot f = k := by
        have : ∀ k < 16, ∃ f ∈ Mgf.names, Spec.slot f = k := by decide
        obtain ⟨f, _, hf⟩ := this k hk; exact ⟨f, hf⟩
      have hnpos : n = Spec.pos f ni nj i j := by
        unfold Spec.pos
        rw [hf]
        have e1 := Nat.div_add_mod n ((ni + 1) * (nj + 1))
        have e2 := Nat.div_add_mod r (ni + 1)
        rw [Nat.mul_comm] at e1 e2
        show n = k * _ + (i + j * (ni + 1))
        have e1' : k * ((ni + 1) * (nj + 1)) + r = n := e1
        have e2' : j * (ni + 1) + i = r := e2
        omega
      obtain ⟨a, b, hx, hget⟩ := written_get ni nj tmp hs f i j hi hj
      rw [hnpos, hget, fromfile_get]
      show _ = Spec.doubleAt F bytes _
      rw [← (ht _ hx).2 i j]
      by_cases hb : i < Spec.nrows f ni ∧ j < Spec.ncols f nj
      · obtain ⟨m, h1, h2, h3⟩ := hc f
        rw [Spec.stored_full h1 h2 h3 hb.1 hb.2]
        exact (hv f m h1 i j hb.1 hb.2).symm
      · rw [Spec.stored, if_neg hb, hpad f i j (by omega) (by omega) (by omega)]
    · rw [List.getElem?_eq_none (by rw [written_length ni nj tmp hs]; omega),
        List.getElem?_eq_none (by rw [fromfile_length]; omega)]
  rw [hfl]
  exact enc_fromfile bytes (by omega)

/-- **C07**: a write succeeds exactly when every field can be stored. -/
theorem C07_write_iff (old : List Byte) (g : Grid F) (ni nj : Nat) :
    ((writeMitgrid old g ni nj).2 = .ok () ↔ ∀ f, Spec.FitsSlot g ni nj f) ∧
    ∀ f, Spec.Unwritable g ni nj f ↔ ¬ Spec.FitsSlot g ni nj f := by
  have hu : ∀ f, Spec.Unwritable g ni nj f ↔ ¬ Spec.FitsSlot g ni nj f := by
    intro f
    unfold Spec.Unwritable Spec.FitsSlot
    cases h : g f with
    | absent => simp
    | none_ => simp
    | arr m =>
      simp only [reduceCtorEq, Entry.arr.injEq, false_or, exists_eq_left']
      omega
  refine ⟨⟨fun h => ?_, fun h => ?_⟩, hu⟩
  · apply Classical.byContradiction
    intro hn
    -- the first field that cannot be stored
    have hex : ∃ n, ∃ f, Spec.slot f = n ∧ ¬ Spec.FitsSlot g ni nj f := by
      obtain ⟨f, hf⟩ := Classical.not_forall.1 hn
      exact ⟨_, f, rfl, hf⟩
    have hmin : ∀ n, (∃ f, Spec.slot f = n ∧ ¬ Spec.FitsSlot g ni nj f) →
        ∃ f, ¬ Spec.FitsSlot g ni nj f ∧ ∀ f', Spec.slot f' < Spec.slot f → Spec.FitsSlot g ni nj f' := by
      intro n
      induction n using Nat.strongRecOn with
      | _ n ih =>
        rintro ⟨f, rfl, hf⟩
        by_cases hb : ∀ f', Spec.slot f' < Spec.slot f → Spec.FitsSlot g ni nj f'
        · exact ⟨f, hf, hb⟩
        · obtain ⟨f', hf'⟩ := Classical.not_forall.1 hb
          have hlt : Spec.slot f' < Spec.slot f := Classical.byContradiction fun hc => hf' fun h => absurd h hc
          exact ih (Spec.slot f') hlt ⟨f', rfl, fun h => hf' fun _ => h⟩
    obtain ⟨n, hn'⟩ := hex
    obtain ⟨f, hf, hb⟩ := hmin n hn'
    obtain ⟨bytes, e, hw, -⟩ := C07_failed_write old g ni nj false f ((hu f).2 hf) hb
    rw [hw] at h
    cases h
  · obtain ⟨bytes, hw, -⟩ := C02_byte_layout old g ni nj h
    rw [hw]

/-! ### Concrete instances -/

/-- A 1x1-cell grid whose entries are all different and nonzero. -/
def exGrid : Grid Toy := fun f =>
  .arr ⟨Spec.nrows f 1, Spec.ncols f 1, fun i j => Toy.ofInt (100 * Spec.slot f + 10 * i + j + 1)⟩

example : Spec.Complete exGrid 1 1 := fun _ => ⟨_, rfl, rfl, rfl⟩

example : PyFloat.isZero (Arith.zero : Toy) = true := by decide

/-- C03/C05/C06/C09 hypotheses hold of the file written for `exGrid`; it is not trivial. -/
example : (writeMitgrid [] exGrid 1 1).1.length = 512 := by
  obtain ⟨b, h1, h2, _⟩ := C02_byte_layout [] exGrid 1 1 (fun f => .inr ⟨_, rfl, .inl rfl, .inl rfl⟩)
  rw [h1]; exact h2

set_option maxRecDepth 20000 in
/-- a file with a nonzero padding entry (XC has one row; entry (1,0) is 2): strict rejects, non-strict accepts. -/
example : Spec.DirtyPadding Toy ((List.replicate 64 (beBytes 2#64)).flatten) 1 1 :=
  ⟨.XC, 1, 0, by omega, by omega, by decide, Toy.mk 2#64, by decide, by decide⟩

example : Spec.Unwritable (fun f => if f = .DXF then .arr ⟨3, 1, fun _ _ => 0⟩ else exGrid f) 1 1 .DXF :=
  .inr ⟨_, rfl, by decide⟩

/-- A 1x1 array stands for the whole field. -/
example : Spec.FitsSlot (fun f => if f = .DXF then .arr ⟨1, 1, fun _ _ => 7⟩ else exGrid f : Grid Toy) 3 2 .DXF ∧
    Spec.stored (fun f => if f = .DXF then .arr ⟨1, 1, fun _ _ => 7⟩ else exGrid f : Grid Toy) 3 2 .DXF 2 1 = some 7 :=
  ⟨.inr ⟨_, rfl, .inr rfl, .inr rfl⟩, by decide⟩

/-- The write is not atomic: after a failed write the previous file contents are gone. -/
example : writeMitgrid [1, 2, 3] (Grid.empty : Grid Toy) 1 1 = ([], .error .keyError) := rfl

end SG
