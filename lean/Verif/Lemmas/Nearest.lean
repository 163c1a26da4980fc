import Verif.Model.Nearest
import Verif.Lemmas.Lists

set_option linter.unusedSectionVars false

namespace SG
variable {F : Type} [PyFloat F]

theorem mem_prod_c {r c : Nat} (p : Nat × Nat) :
    p ∈ ((List.range r).flatMap fun i => (List.range c).map fun j => (i, j)) ↔ p.1 < r ∧ p.2 < c := by
  obtain ⟨a, b⟩ := p
  simp [List.mem_flatMap]

theorem mem_prod_f {r c : Nat} (p : Nat × Nat) :
    p ∈ ((List.range c).flatMap fun j => (List.range r).map fun i => (i, j)) ↔ p.1 < r ∧ p.2 < c := by
  obtain ⟨a, b⟩ := p
  simp only [List.mem_flatMap, List.mem_range, List.mem_map, Prod.mk.injEq]
  constructor
  · rintro ⟨_, _, _, _, rfl, rfl⟩; omega
  · rintro ⟨h1, h2⟩; exact ⟨b, h2, a, h1, rfl, rfl⟩

theorem nodup_flatMap_range {α : Type} (n : Nat) (f : Nat → List α) (hf : ∀ i, i < n → (f i).Nodup)
    (hd : ∀ i j x, i < n → j < n → x ∈ f i → x ∈ f j → i = j) :
    ((List.range n).flatMap f).Nodup := by
  rw [List.nodup_iff_pairwise_ne, List.flatMap_def, List.pairwise_flatten]
  constructor
  · intro l hl
    simp only [List.mem_map, List.mem_range] at hl
    obtain ⟨i, hi, rfl⟩ := hl
    exact hf i hi
  · rw [List.pairwise_map]
    have : (List.range n).Pairwise (fun a b => a ≠ b) := List.nodup_iff_pairwise_ne.1 List.nodup_range
    refine List.Pairwise.imp_of_mem ?_ this
    intro a b ha hb hab x hx y hy hxy
    subst hxy
    exact hab (hd a b x (List.mem_range.1 ha) (List.mem_range.1 hb) hx hy)

theorem NArr.ofC_wf (m : Mat F) : (NArr.ofC m).WF where
  mem p := mem_prod_c p
  nodup := by
    apply nodup_flatMap_range
    · intro i _
      exact List.nodup_iff_pairwise_ne.2 (List.pairwise_map.2
        ((List.nodup_iff_pairwise_ne.1 List.nodup_range).imp (by simp)))
    · intro i j x _ _ h1 h2
      simp only [List.mem_map] at h1 h2
      obtain ⟨_, _, rfl⟩ := h1
      obtain ⟨_, _, h⟩ := h2
      simp at h; exact h.1.symm

theorem NArr.ofF_wf (m : Mat F) : (NArr.ofF m).WF where
  mem p := mem_prod_f p
  nodup := by
    apply nodup_flatMap_range
    · intro i _
      exact List.nodup_iff_pairwise_ne.2 (List.pairwise_map.2
        ((List.nodup_iff_pairwise_ne.1 List.nodup_range).imp (by simp)))
    · intro i j x _ _ h1 h2
      simp only [List.mem_map] at h1 h2
      obtain ⟨_, _, rfl⟩ := h1
      obtain ⟨_, _, h⟩ := h2
      simp at h; exact h.2.symm

theorem NArr.rot90_wf {a : NArr F} (h : a.WF) : a.rot90.WF where
  mem p := by
    obtain ⟨i, j⟩ := p
    simp only [NArr.rot90, Mat.rot90, List.mem_map, Prod.mk.injEq, Prod.exists]
    constructor
    · rintro ⟨r, c, hm, rfl, rfl⟩
      have := (h.mem _).1 hm
      simp only at this
      omega
    · rintro ⟨h1, h2⟩
      exact ⟨j, a.mat.cols - 1 - i, (h.mem _).2 ⟨h2, by simp only; omega⟩, by omega, rfl⟩
  nodup := by
    simp only [NArr.rot90]
    rw [List.nodup_iff_pairwise_ne, List.pairwise_map]
    refine List.Pairwise.imp_of_mem ?_ (List.nodup_iff_pairwise_ne.1 h.nodup)
    intro p q hp hq hne he
    have h1 := (h.mem p).1 hp
    have h2 := (h.mem q).1 hq
    simp only [Prod.mk.injEq] at he
    exact hne (Prod.ext he.2 (by omega))

/-- Result of the scan, as an optional index. -/
theorem nearest_fold_inv [FloatOrder F] (d : Nat × Nat → F) (s0 : F) (l : List (Nat × Nat)) :
    let step := fun (s : Int × Int × F) (p : Nat × Nat) =>
      if PyFloat.lt (d p) s.2.2 then ((p.1 : Int), (p.2 : Int), d p) else s
    (l.foldl step (-1, -1, s0) = (-1, -1, s0) ∧ ∀ p ∈ l, PyFloat.lt (d p) s0 = false) ∨
    ∃ pre p post, l = pre ++ p :: post ∧ l.foldl step (-1, -1, s0) = ((p.1 : Int), (p.2 : Int), d p) ∧
      PyFloat.lt (d p) s0 = true ∧
      (∀ q ∈ l, PyFloat.lt (d q) (d p) = false) ∧
      (∀ q ∈ pre, PyFloat.le (d q) (d p) = false) := by
  intro step
  induction l using snoc_ind with
  | nil => left; simp
  | snoc l a ih =>
    simp only [List.foldl_append, List.foldl_cons, List.foldl_nil]
    rcases ih with ⟨h1, h2⟩ | ⟨pre, p, post, e, h1, h2, h3, h4⟩
    · rw [h1]
      by_cases ha : PyFloat.lt (d a) s0 = true
      · right
        refine ⟨l, a, [], rfl, ?_, ha, ?_, ?_⟩
        · simp [step, ha]
        · intro q hq
          rcases List.mem_append.1 hq with hq | hq
          · rw [Bool.eq_false_iff]; intro hlt
            have := FloatOrder.trans _ _ _ hlt ha
            rw [h2 q hq] at this; cases this
          · simp at hq; subst hq; exact FloatOrder.irrefl _
        · intro q hq
          rw [Bool.eq_false_iff]; intro hle
          have := FloatOrder.le_lt_trans _ _ _ hle ha
          rw [h2 q hq] at this; cases this
      · left
        refine ⟨by simp [step, ha], ?_⟩
        intro q hq
        rcases List.mem_append.1 hq with hq | hq
        · exact h2 q hq
        · simp at hq; subst hq; simpa using ha
    · rw [h1]
      right
      by_cases ha : PyFloat.lt (d a) (d p) = true
      · refine ⟨l, a, [], rfl, ?_, FloatOrder.trans _ _ _ ha h2, ?_, ?_⟩
        · simp [step, ha]
        · intro q hq
          rcases List.mem_append.1 hq with hq | hq
          · rw [Bool.eq_false_iff]; intro hlt
            have := FloatOrder.trans _ _ _ hlt ha
            rw [h3 q hq] at this; cases this
          · simp at hq; subst hq; exact FloatOrder.irrefl _
        · intro q hq
          rw [Bool.eq_false_iff]; intro hle
          have := FloatOrder.le_lt_trans _ _ _ hle ha
          rw [h3 q hq] at this; cases this
      · refine ⟨pre, p, post ++ [a], by simp [e], by simp [step, ha], h2, ?_, h4⟩
        intro q hq
        rcases List.mem_append.1 hq with hq | hq
        · exact h3 q hq
        · simp at hq; subst hq; simpa using ha

end SG
