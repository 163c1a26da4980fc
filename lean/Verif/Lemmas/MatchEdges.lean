import Verif.Model.MatchEdges
import Verif.Props.ComputeGrid
/-! # Lemmas about `matchedges` -/

set_option linter.unusedSectionVars false

namespace SG
variable {F : Type} [PyFloat F]

/-! ### minima -/

def minFold (init : F) (l : List F) : F := l.foldl (fun acc x => if PyFloat.lt x acc then x else acc) init

theorem minFold_cons (init x : F) (l : List F) :
    minFold init (x :: l) = minFold (if PyFloat.lt x init then x else init) l := rfl

theorem minFold_mem (init : F) (l : List F) : minFold init l = init ∨ minFold init l ∈ l := by
  induction l generalizing init with
  | nil => left; rfl
  | cons x l ih =>
    rw [minFold_cons]
    rcases ih (if PyFloat.lt x init then x else init) with h | h
    · rw [h]; split
      · right; simp
      · left; rfl
    · right; exact List.mem_cons_of_mem _ h

theorem minFold_le_init [FloatTotal F] (init : F) (l : List F) (y : F) (h : PyFloat.lt y init = false) :
    PyFloat.lt y (minFold init l) = false := by
  induction l generalizing init with
  | nil => exact h
  | cons x l ih =>
    rw [minFold_cons]
    apply ih
    split
    · rename_i hx
      cases hy : PyFloat.lt y x with
      | false => rfl
      | true => rw [FloatOrder.trans y x init hy hx] at h; cases h
    · exact h

theorem minFold_min [FloatTotal F] (init : F) (l : List F) (y : F) (hy : y ∈ l) :
    PyFloat.lt y (minFold init l) = false := by
  induction l generalizing init with
  | nil => cases hy
  | cons x l ih =>
    rw [minFold_cons]
    rcases List.mem_cons.1 hy with rfl | h
    · apply minFold_le_init
      split
      · exact FloatOrder.irrefl _
      · rename_i h; simpa using h
    · exact ih _ h

theorem minFold_num [FloatTotal F] (init : F) (l : List F) (h : PyFloat.le init init = true) :
    PyFloat.le (minFold init l) (minFold init l) = true := by
  induction l generalizing init with
  | nil => exact h
  | cons x l ih =>
    rw [minFold_cons]
    apply ih
    split
    · rename_i hx
      exact (FloatTotal.le_self _ _ (FloatTotal.lt_le _ _ hx)).1
    · exact h

/-- The minimum is within a (finite) tolerance iff some element is. -/
theorem minFold_le_iff [FloatTotal F] (l : List F) (t : F) (ht : PyFloat.le PyFloat.inf t = false) :
    PyFloat.le (minFold PyFloat.inf l) t = true ↔ ∃ x ∈ l, PyFloat.le x t = true := by
  constructor
  · intro h
    rcases minFold_mem PyFloat.inf l with e | hm
    · rw [e, ht] at h; cases h
    · exact ⟨_, hm, h⟩
  · rintro ⟨x, hx, hle⟩
    have h1 := minFold_min PyFloat.inf l x hx
    have h2 := FloatTotal.total x _ (FloatTotal.le_self _ _ hle).1 (minFold_num PyFloat.inf l FloatTotal.inf_self) h1
    exact FloatTotal.le_trans _ _ _ h2 hle

/-! ### corner matrices -/

/-- Index of a corner: `(east, north)`. -/
def cornerIdx (c : Bool × Bool) : Int × Int := (if c.1 then -1 else 0, if c.2 then -1 else 0)

theorem corners_eq : corners =
    [cornerIdx (false, false), cornerIdx (true, false), cornerIdx (true, true), cornerIdx (false, true)] := rfl

def b2n (b : Bool) : Nat := if b then 1 else 0

/-- A 2x2 matrix by corners. -/
def Mat.cor {α : Type} (m : Mat α) (c : Bool × Bool) : α := m.get (b2n c.1) (b2n c.2)

theorem Mat.set_self {α : Type} (m : Mat α) (i j : Nat) : m.set i j (m.get i j) = m := by
  unfold Mat.set
  cases m with
  | mk r c g =>
    dsimp only
    congr 1
    funext i' j'
    split
    · rename_i h; rw [h.1, h.2]
    · rfl

theorem pyIdx_two (b : Bool) : pyIdx 2 (if b then -1 else 0) = some (b2n b) := by
  cases b <;> decide

theorem innerMin (dist : Int × Int → Int × Int → Py F) (D : Bool × Bool → F) (c : Bool × Bool)
    (l : List (Bool × Bool)) (h : ∀ c' ∈ l, dist (cornerIdx c) (cornerIdx c') = .ok (D c')) (m : Mat F)
    (hr : m.rows = 2) (hc : m.cols = 2) :
    (l.map cornerIdx).foldlM (fun (m : Mat F) c' => do
      let d ← dist (cornerIdx c) c'
      let cur ← m.atI (cornerIdx c).1 (cornerIdx c).2
      if PyFloat.lt d cur then m.setAtI (cornerIdx c).1 (cornerIdx c).2 d else pure m) m =
    Except.ok (m.set (b2n c.1) (b2n c.2) (minFold (m.cor c) (l.map D))) := by
  induction l generalizing m with
  | nil => show Except.ok m = _; rw [show minFold (m.cor c) ([].map D) = m.get (b2n c.1) (b2n c.2) from rfl, Mat.set_self]
  | cons c' l ih =>
    rw [List.map_cons, List.foldlM_cons, h c' (by simp), Py.ok_bind]
    have hat : m.atI (cornerIdx c).1 (cornerIdx c).2 = .ok (m.cor c) := by
      unfold Mat.atI cornerIdx
      dsimp only
      rw [hr, hc, pyIdx_two, pyIdx_two]; rfl
    have hst : ∀ v, m.setAtI (cornerIdx c).1 (cornerIdx c).2 v = .ok (m.set (b2n c.1) (b2n c.2) v) := by
      intro v
      unfold Mat.setAtI cornerIdx
      dsimp only
      rw [hr, hc, pyIdx_two, pyIdx_two]
    rw [hat, Py.ok_bind, hst]
    have ih' := fun m hr hc => ih (fun c' hc' => h c' (List.mem_cons_of_mem _ hc')) m hr hc
    rw [List.map_cons, minFold_cons]
    by_cases hlt : PyFloat.lt (D c') (m.cor c) = true
    · rw [if_pos hlt, if_pos hlt, Py.ok_bind, ih' (m.set (b2n c.1) (b2n c.2) (D c')) hr hc]
      congr 1
      have e1 : (m.set (b2n c.1) (b2n c.2) (D c')).cor c = D c' := by
        unfold Mat.cor Mat.set; dsimp only; rw [if_pos ⟨rfl, rfl⟩]
      rw [e1]
      unfold Mat.set
      dsimp only
      congr 1
      funext i j
      split
      · rfl
      · rfl
    · rw [if_neg hlt, if_neg hlt]
      exact ih' m hr hc

theorem minDists_spec (dist : Int × Int → Int × Int → Py F) (D : Bool × Bool → Bool × Bool → F)
    (h : ∀ c c', dist (cornerIdx c) (cornerIdx c') = .ok (D c c')) :
    ∃ m, minDists dist = .ok m ∧ m.rows = 2 ∧ m.cols = 2 ∧
      ∀ c, m.cor c = minFold PyFloat.inf
        [D c (false, false), D c (true, false), D c (true, true), D c (false, true)] := by
  have step := fun c m hr hc => innerMin dist (D c) c [(false, false), (true, false), (true, true), (false, true)]
    (fun c' _ => h c c') m hr hc
  unfold minDists
  simp only [corners_eq] at step ⊢
  simp only [List.map_cons, List.map_nil] at step
  rw [List.foldlM_cons, step _ _ rfl rfl, Py.ok_bind, List.foldlM_cons, step _ _ rfl rfl, Py.ok_bind,
    List.foldlM_cons, step _ _ rfl rfl, Py.ok_bind, List.foldlM_cons, step _ _ rfl rfl, Py.ok_bind, List.foldlM_nil]
  refine ⟨_, rfl, rfl, rfl, ?_⟩
  rintro ⟨a, b⟩
  cases a <;> cases b <;> rfl

theorem minDists_err (dist : Int × Int → Int × Int → Py F) (m : Mat F) (h : minDists dist = .ok m) :
    ∀ e, dist (0, 0) (0, 0) ≠ .error e := by
  intro e he
  unfold minDists at h
  simp only [corners] at h
  rw [List.foldlM_cons, List.foldlM_cons, he] at h
  cases h

/-! ### edge detection -/

theorem toList_two (m : Mat F) (hr : m.rows = 2) (hc : m.cols = 2) (c : Bool × Bool) : m.cor c ∈ m.toList := by
  unfold Mat.toList Mat.cor
  rw [hr, hc]
  refine List.mem_flatMap.2 ⟨b2n c.1, ?_, List.mem_map.2 ⟨b2n c.2, ?_, rfl⟩⟩ <;>
    rw [List.mem_range] <;> unfold b2n <;> split <;> omega

/-- The closeness test does not fire when some corner is within the tolerance. -/
theorem amin_ok [FloatTotal F] (l1 l2 : List F) (t x : F) (ht : PyFloat.le PyFloat.inf t = false)
    (hx : x ∈ l1) (hle : PyFloat.le x t = true) :
    PyFloat.lt t (amin [amin l1, amin l2]) = false := by
  have e : ∀ l : List F, amin l = minFold PyFloat.inf l := fun _ => rfl
  have h1 : PyFloat.le (minFold PyFloat.inf l1) t = true := (minFold_le_iff l1 t ht).2 ⟨x, hx, hle⟩
  have h2 : PyFloat.lt (minFold PyFloat.inf l1) (minFold PyFloat.inf [minFold PyFloat.inf l1, minFold PyFloat.inf l2]) =
      false := minFold_min _ _ _ (by simp)
  rw [e, e, e]
  cases h : PyFloat.lt t (minFold PyFloat.inf [minFold PyFloat.inf l1, minFold PyFloat.inf l2]) with
  | false => rfl
  | true => rw [FloatOrder.le_lt_trans _ _ _ h1 h] at h2; cases h2

end SG
