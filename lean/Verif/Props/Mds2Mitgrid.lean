import Verif.Model.Mds2Mitgrid
import Verif.Lemmas.GridIO
/-! # Properties of `mds2mitgrid` (C50) -/

set_option linter.unusedSectionVars false
namespace SG
variable {F : Type} [PyFloat F]

theorem mdsFold_grid (rd : Field → Option (Mat F)) (xs : List (Field × Nat × Nat)) (s : Grid F × Nat × Nat)
    (hx : ∀ x ∈ xs, ∀ y ∈ xs, x.1 = y.1 → x = y) (f : Field) :
    (xs.foldl (mdsField rd) s).1 f =
      match xs.find? (·.1 = f), rd f with
      | some x, some m => .arr (padded m.transpose x.2.1 x.2.2)
      | _, _ => s.1 f := by
  induction xs generalizing s with
  | nil => rfl
  | cons a t ih =>
    rw [List.foldl_cons, ih _ (fun x h1 y h2 => hx x (by simp [h1]) y (by simp [h2])), List.find?_cons]
    by_cases h : a.1 = f
    · simp only [h, decide_true]
      have e : ∀ x ∈ t, x.1 = f → x = a := fun x h1 h2 => hx x (by simp [h1]) a (by simp) (h2.trans h.symm)
      cases hm : rd f with
      | none =>
        simp only [mdsField, h, hm]
        cases t.find? (fun x => decide (x.1 = f)) <;> rfl
      | some m =>
        cases ht : t.find? (·.1 = f) with
        | none => simp only [mdsField, h, hm, Grid.put, if_pos]
        | some x =>
          have h1 := List.mem_of_find?_eq_some ht
          have h2 := List.find?_some ht
          rw [e x h1 (by simpa using h2)]
    · simp only [h, decide_false]
      have : (mdsField rd s a).1 f = s.1 f := by
        unfold mdsField
        cases rd a.1 with
        | none => rfl
        | some m => exact if_neg (fun e => h e.symm)
      rw [this]

theorem mdsFold_sizes (rd : Field → Option (Mat F)) (xs : List (Field × Nat × Nat)) (s : Grid F × Nat × Nat) :
    (xs.foldl (mdsField rd) s).2 =
      if s.2.1 = 0 ∧ s.2.2 = 0 then
        ((xs.filterMap fun x => rd x.1).find? fun m => !(m.rows == 0 && m.cols == 0)).elim (0, 0)
          fun m => (m.cols, m.rows)
      else s.2 := by
  induction xs generalizing s with
  | nil =>
    obtain ⟨g, a, b⟩ := s
    by_cases h : a = 0 ∧ b = 0
    · obtain ⟨rfl, rfl⟩ := h; rfl
    · exact (if_neg h).symm
  | cons a t ih =>
    rw [List.foldl_cons, ih]
    unfold mdsField
    cases hm : rd a.1 with
    | none => simp [List.filterMap_cons, hm]
    | some m =>
      obtain ⟨g, p, q⟩ := s
      simp only [List.filterMap_cons, hm, List.find?_cons, Mat.transpose]
      by_cases h : p = 0 ∧ q = 0
      · simp only [h, and_self, if_true]
        by_cases h0 : m.rows = 0 ∧ m.cols = 0
        · simp [h0]
        · rw [if_neg (by omega)]
          have : (m.rows == 0 && m.cols == 0) = false := by
            simp only [Bool.and_eq_false_iff, beq_eq_false_iff_ne]; omega
          simp [this]
      · simp [h]

/-- **C50** (arrays).  A field that can be read is stored transposed in the leading block of an array with the extra row and
column of the format, which are zero; other fields are `None`. -/
theorem C50_padding (rd : Field → Option (Mat F)) (f : Field) :
    (rd f = none → (mds2mitgrid rd).1 f = .none_) ∧
    ∀ m, rd f = some m → ∃ a, (mds2mitgrid rd).1 f = .arr a ∧
      a.rows = Spec.nrows f m.cols ∧ a.cols = Spec.ncols f m.rows ∧
      (∀ i j, i < m.cols → j < m.rows → a.get i j = m.get j i) ∧
      (∀ i j, m.cols ≤ i ∨ m.rows ≤ j → a.get i j = Arith.zero) := by
  have h := mdsFold_grid rd Mgf.zipped (Grid.allNone, 0, 0) (by decide) f
  refine ⟨fun hn => ?_, fun m hm => ?_⟩
  · unfold mds2mitgrid; rw [h, hn]
    cases Mgf.zipped.find? (·.1 = f) <;> rfl
  · rw [hm] at h
    cases hf : Mgf.zipped.find? (·.1 = f) with
    | none =>
      have h1 := List.find?_eq_none.1 hf
      obtain ⟨x, hx, e⟩ := List.mem_map.1 (mem_zipped_names f)
      exact absurd (by simpa using e) (h1 x hx)
    | some x =>
      rw [hf] at h
      have e : x.1 = f := by simpa using List.find?_some hf
      obtain ⟨-, hr, hc, -, -⟩ := zipped_mem x (List.mem_of_find?_eq_some hf)
      rw [e] at hr hc
      refine ⟨_, h, hr m.cols, hc m.rows, fun i j hi hj => ?_, fun i j hij => ?_⟩
      · exact if_pos ⟨hi, hj⟩
      · exact if_neg (by simp only [Mat.transpose]; omega)

/-- **C50** (sizes).  `(ni,nj)` is the size of the first readable field in file order; `(0,0)` if nothing is readable. -/
theorem C50_sizes (rd : Field → Option (Mat F)) :
    ((∀ f, rd f = none) → (mds2mitgrid rd).2 = (0, 0)) ∧
    ∀ f m, rd f = some m → (∀ g, Spec.slot g < Spec.slot f → rd g = none) → m.rows ≠ 0 ∨ m.cols ≠ 0 →
      (mds2mitgrid rd).2 = (m.cols, m.rows) := by
  have h := mdsFold_sizes rd Mgf.zipped (Grid.allNone, 0, 0)
  rw [if_pos ⟨rfl, rfl⟩] at h
  refine ⟨fun hn => ?_, fun f m hm hfirst hne => ?_⟩
  · unfold mds2mitgrid; rw [h]; simp only [hn]; rfl
  · unfold mds2mitgrid; rw [h]
    have key : ∀ (xs : List Field), xs.Pairwise (fun a b => Spec.slot a < Spec.slot b) → f ∈ xs →
        (xs.filterMap rd).find? (fun m => !(m.rows == 0 && m.cols == 0)) = some m := by
      intro xs hp hf
      induction xs with
      | nil => cases hf
      | cons a t ih =>
        rw [List.filterMap_cons]
        rcases List.mem_cons.1 hf with rfl | hf
        · rw [hm]
          have : (m.rows == 0 && m.cols == 0) = false := by
            simp only [Bool.and_eq_false_iff, beq_eq_false_iff_ne]; omega
          simp [this]
          exact hne
        · rw [hfirst a ((List.pairwise_cons.1 hp).1 f hf)]
          exact ih (List.pairwise_cons.1 hp).2 hf
    have e : (Mgf.zipped.filterMap fun x => rd x.1) = (Mgf.zipped.map (·.1)).filterMap rd := by
      rw [List.filterMap_map]; rfl
    rw [e, key _ (by decide) (mem_zipped_names f)]
    rfl

/-- A run directory with `YC` (2 by 1) and `XG`. -/
private def exRd : Field → Option (Mat Toy)
  | .YC => some ⟨2, 1, fun i _ => .ofInt (i + 7)⟩
  | .XG => some ⟨2, 1, fun i _ => .ofInt (i + 3)⟩
  | _ => none

example : (mds2mitgrid exRd).2 = (1, 2) :=
  (C50_sizes exRd).2 .YC _ rfl (by intro g; cases g <;> decide) (by decide)
example : ∃ a, (mds2mitgrid exRd).1 .XG = .arr a ∧ a.rows = 2 ∧ a.cols = 3 ∧
    a.toList = [3, 4, 0, 0, 0, 0] := ⟨_, rfl, rfl, rfl, by decide⟩

end SG
