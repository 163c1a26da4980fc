import Verif.Base.NdArr
import Verif.Lemmas.Lists
/-! Lemmas on arrays of any rank. -/

set_option linter.unusedSectionVars false
namespace SG
variable {F : Type}

/-- `idx` is an index of an array of shape `s`. -/
def InShape : List Nat → List Nat → Prop
  | [], [] => True
  | n :: s, i :: idx => i < n ∧ InShape s idx
  | _, _ => False

instance decInShape : ∀ s idx, Decidable (InShape s idx)
  | [], [] => isTrue trivial
  | n :: s, i :: idx => by have := decInShape s idx; unfold InShape; infer_instance
  | [], _ :: _ => isFalse id
  | _ :: _, [] => isFalse id

theorem InShape.length : ∀ {s idx : List Nat}, InShape s idx → idx.length = s.length
  | [], [], _ => rfl
  | _ :: s, _ :: idx, h => by have := InShape.length h.2; simp [this]

theorem mem_indices : ∀ {s idx : List Nat}, idx ∈ indices s ↔ InShape s idx
  | [], idx => by
    cases idx with
    | nil => simp [indices, InShape]
    | cons i idx => simp [indices, InShape]
  | n :: s, idx => by
    unfold indices
    rw [List.mem_flatMap]
    constructor
    · rintro ⟨i, hi, h⟩
      obtain ⟨q, hq, rfl⟩ := List.mem_map.1 h
      exact ⟨List.mem_range.1 hi, mem_indices.1 hq⟩
    · intro h
      cases idx with
      | nil => exact h.elim
      | cons i q => exact ⟨i, List.mem_range.2 h.1, List.mem_map.2 ⟨q, mem_indices.2 h.2, rfl⟩⟩

theorem indices_length : ∀ (s : List Nat), (indices s).length = prodL s
  | [] => rfl
  | n :: s => by
    unfold indices
    rw [length_flatMap_const _ _ (prodL s) (by intro i _; rw [List.length_map, indices_length s]), List.length_range]
    rfl

theorem ravel_lt : ∀ {s idx : List Nat}, InShape s idx → ravel s idx < prodL s
  | [], [], _ => by decide
  | n :: s, i :: idx, h => by
    have := ravel_lt h.2
    show i * prodL s + ravel s idx < n * prodL s
    have h1 : i * prodL s + prodL s ≤ n * prodL s := by
      rw [← Nat.succ_mul]; exact Nat.mul_le_mul_right _ h.1
    omega

theorem indices_ravel : ∀ {s idx : List Nat}, InShape s idx → (indices s)[ravel s idx]? = some idx
  | [], [], _ => rfl
  | n :: s, i :: idx, h => by
    show ((List.range n).flatMap fun i => (indices s).map (i :: ·))[i * prodL s + ravel s idx]? = _
    rw [getElem?_flatMap_const _ _ (prodL s) (by intro i _; rw [List.length_map, indices_length s]) _ _ (ravel_lt h.2),
      List.getElem?_range h.1, Option.bind_some, List.getElem?_map, indices_ravel h.2]
    rfl

namespace NdArr

theorem toList_length (a : NdArr F) : a.toList.length = prodL a.shape := by
  unfold toList; rw [List.length_map, indices_length]

theorem toList_get (a : NdArr F) {idx : List Nat} (h : InShape a.shape idx) : a.toList[ravel a.shape idx]? = some (a.get idx) := by
  unfold toList; rw [List.getElem?_map, indices_ravel h]; rfl

/-- Every position is the position of an index. -/
theorem ravel_indices (s : List Nat) {k : Nat} (hk : k < prodL s) : ∃ idx, InShape s idx ∧ ravel s idx = k := by
  induction s generalizing k with
  | nil => exact ⟨[], trivial, by simp [prodL] at hk; subst hk; rfl⟩
  | cons n s ih =>
    have hk : k < n * prodL s := hk
    have hp : 0 < prodL s := by
      rcases Nat.eq_zero_or_pos (prodL s) with h | h
      · rw [h] at hk; simp at hk
      · exact h
    obtain ⟨idx, h1, h2⟩ := ih (Nat.mod_lt k hp)
    refine ⟨k / prodL s :: idx, ⟨Nat.div_lt_of_lt_mul (by rw [Nat.mul_comm]; exact hk), h1⟩, ?_⟩
    show k / prodL s * prodL s + ravel s idx = k
    rw [h2, Nat.mul_comm]; exact Nat.div_add_mod _ _

theorem ofList_toList (d : F) {s : List Nat} {l : List F} (h : l.length = prodL s) : (ofList d s l).toList = l := by
  apply List.ext_getElem?
  intro k
  by_cases hk : k < prodL s
  · obtain ⟨idx, h1, h2⟩ := ravel_indices s hk
    have := toList_get (ofList d s l) (idx := idx) h1
    rw [show (ofList d s l).shape = s from rfl, h2] at this
    rw [this]
    show some (l.getD (ravel s idx) d) = _
    rw [h2, List.getD_eq_getElem?_getD, List.getElem?_eq_getElem (by omega)]
    rfl
  · rw [List.getElem?_eq_none (by rw [toList_length]; exact Nat.le_of_not_lt hk), List.getElem?_eq_none (by omega)]

theorem ofList_get (d : F) {s : List Nat} {l : List F} {idx : List Nat} {x : F} (h : l[ravel s idx]? = some x) :
    (ofList d s l).get idx = x := by
  show l.getD (ravel s idx) d = x
  rw [List.getD_eq_getElem?_getD, h]; rfl

theorem toList_congr {a b : NdArr F} (hs : a.shape = b.shape) (h : ∀ idx, InShape a.shape idx → a.get idx = b.get idx) :
    a.toList = b.toList := by
  unfold toList
  rw [← hs]
  exact List.map_congr_left fun idx hi => h idx (mem_indices.1 hi)

theorem reshape_ok (d : F) {a : NdArr F} {s : List Nat} (h : prodL s = prodL a.shape) :
    ∃ b, a.reshape d s = .ok b ∧ b.shape = s ∧ b.toList = a.toList := by
  refine ⟨ofList d s a.toList, ?_, rfl, ofList_toList d (by rw [toList_length, h])⟩
  unfold reshape
  rw [if_pos h]

/-! ### Assignments -/

theorem foldl_set (pos : List Nat → List Nat) (w : List Nat → F) : ∀ (l : List (List Nat)) (a : NdArr F),
    (∀ q ∈ l, ∀ q' ∈ l, pos q = pos q' → q = q') →
    (l.foldl (fun a q => a.set (pos q) (w q)) a).shape = a.shape ∧
    (∀ q ∈ l, (l.foldl (fun a q => a.set (pos q) (w q)) a).get (pos q) = w q) ∧
    (∀ idx, (∀ q ∈ l, pos q ≠ idx) → (l.foldl (fun a q => a.set (pos q) (w q)) a).get idx = a.get idx) := by
  intro l
  induction l with
  | nil => intro a _; exact ⟨rfl, (by intro q hq; cases hq), fun _ _ => rfl⟩
  | cons r l ih =>
    intro a hinj
    obtain ⟨h1, h2, h3⟩ := ih (a.set (pos r) (w r)) (fun q hq q' hq' => hinj q (by simp [hq]) q' (by simp [hq']))
    rw [List.foldl_cons]
    refine ⟨h1, ?_, ?_⟩
    · intro q hq
      by_cases hm : q ∈ l
      · exact h2 q hm
      · have hq : q = r := by simpa [hm] using hq
        subst hq
        rw [h3 (pos q) (by
          intro q' hq' he
          have := hinj q' (by simp [hq']) q (by simp) he
          exact hm (this ▸ hq'))]
        show (if pos q = pos q then w q else a.get (pos q)) = w q
        rw [if_pos rfl]
    · intro idx hidx
      rw [h3 idx (fun q hq => hidx q (by simp [hq]))]
      show (if idx = pos r then w r else a.get idx) = a.get idx
      rw [if_neg (fun e => hidx r (by simp) e.symm)]

theorem castable_self : ∀ s : List Nat, castable s s = true
  | [] => rfl
  | n :: s => by
    have := castable_self s
    unfold castable at *
    simp only [List.length_cons, List.zip_cons_cons, List.all_cons, Bool.and_eq_true, decide_eq_true_eq, Bool.or_eq_true] at *
    exact ⟨trivial, Or.inl trivial, this.2⟩

theorem bget_inShape {v : NdArr F} {q : List Nat} (h : InShape v.shape q) : v.bget q = v.get q := by
  unfold bget
  congr 1
  generalize v.shape = s at h
  induction s generalizing q with
  | nil =>
    cases q with
    | nil => rfl
    | cons => exact h.elim
  | cons n s ih =>
    cases q with
    | nil => exact h.elim
    | cons i q =>
      rw [List.zipWith_cons_cons, ih h.2]
      have := h.1
      by_cases hn : n = 1
      · rw [if_pos hn]; congr 1; omega
      · rw [if_neg hn]

/-- Assignment of a value of the same shape. -/
theorem assign_spec (a : NdArr F) {vs : List Nat} {pos : List Nat → List Nat} {v : NdArr F} (hv : v.shape = vs)
    (hinj : ∀ q q', InShape vs q → InShape vs q' → pos q = pos q' → q = q') :
    ∃ b, a.assign vs pos v = .ok b ∧ b.shape = a.shape ∧ (∀ q, InShape vs q → b.get (pos q) = v.get q) ∧
      (∀ idx, (∀ q, InShape vs q → pos q ≠ idx) → b.get idx = a.get idx) := by
  obtain ⟨h1, h2, h3⟩ := foldl_set pos v.bget (indices vs) a
    (fun q hq q' hq' => hinj q q' (mem_indices.1 hq) (mem_indices.1 hq'))
  refine ⟨_, ?_, h1, ?_, ?_⟩
  · unfold assign
    rw [hv, if_pos (castable_self vs)]
  · intro q hq
    rw [h2 q (mem_indices.2 hq)]
    exact bget_inShape (by rw [hv]; exact hq)
  · intro idx hidx
    exact h3 idx fun q hq => hidx q (mem_indices.1 hq)

end NdArr

/-! ### Slices -/

theorem sliceOf_nat {n a b : Nat} (hab : a ≤ b) (hb : b ≤ n) : sliceOf n a b = (a, b - a) := by
  unfold sliceOf
  dsimp only
  rw [if_neg (by omega), if_neg (by omega)]
  congr 1 <;> omega

theorem sliceList_nat {n a b : Nat} (hab : a ≤ b) (hb : b ≤ n) : sliceList n a b = List.range' a (b - a) := by
  unfold sliceList; rw [sliceOf_nat hab hb]

end SG
