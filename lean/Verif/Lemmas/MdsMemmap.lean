import Verif.Model.MdsMore
import Verif.Lemmas.MdsRead
/-! # Memory maps: lemmas -/

set_option linter.unusedSectionVars false
namespace SG
variable {F : Type}

/-! ## Loops -/

theorem foldlM_ok_inv {α β : Type} {f : β → α → Py β} {g : β → α → β} {C : α → Prop} : ∀ {l : List α} {b b' : β},
    (∀ x ∈ l, ∀ b b', f b x = .ok b' → b' = g b x ∧ C x) → l.foldlM f b = .ok b' → b' = l.foldl g b ∧ ∀ x ∈ l, C x
  | [], b, b', _, h => by
    have : b = b' := by injection h
    exact ⟨this.symm, by simp⟩
  | a :: l, b, b', hf, h => by
    rw [List.foldlM_cons] at h
    obtain ⟨c, h1, h2⟩ := bind_ok_inv h
    obtain ⟨e, hc⟩ := hf a (by simp) b c h1
    obtain ⟨e2, hc2⟩ := foldlM_ok_inv (fun x hx => hf x (by simp [hx])) h2
    refine ⟨by rw [e2, e]; rfl, ?_⟩
    intro x hx
    rcases List.mem_cons.1 hx with rfl | hx
    · exact hc
    · exact hc2 x hx

/-- A loop that does not change what a pure loop sees. -/
theorem dirFold_of_foldlM {σ α : Type} {f : MdsDir → σ → α → MdsDir × Py σ} {g : σ → α → Py σ} {P : MdsDir → Prop} {Q : σ → Prop} :
    ∀ {l : List α} {d : MdsDir} {s s' : σ}, (∀ a ∈ l, ∀ d s s', P d → Q s → g s a = .ok s' → Q s' ∧ ∃ d', f d s a = (d', .ok s') ∧ P d') →
    P d → Q s → l.foldlM g s = .ok s' → Q s' ∧ ∃ d', dirFold f d s l = (d', .ok s') ∧ P d'
  | [], d, s, s', _, hP, hQ, h => by
    have : s = s' := by injection h
    subst this
    exact ⟨hQ, d, rfl, hP⟩
  | a :: l, d, s, s', hf, hP, hQ, h => by
    rw [List.foldlM_cons] at h
    obtain ⟨c, h1, h2⟩ := bind_ok_inv h
    obtain ⟨hQc, d1, e1, hP1⟩ := hf a (by simp) d s c hP hQ h1
    obtain ⟨hQ', d2, e2, hP2⟩ := dirFold_of_foldlM (fun x hx => hf x (by simp [hx])) hP1 hQc h2
    exact ⟨hQ', d2, by unfold dirFold; rw [e1]; exact e2, hP2⟩

/-! ## Items -/

theorem itemsOf_same [F64 F] [F32 F] (p : Prec) (e : Endian) {bs bs' : List Byte} {L m : Nat} (h : bs.take L = bs'.take L)
    (hl : L ≤ bs.length) (hl' : L ≤ bs'.length) (hm : (m + 1) * p.size ≤ L) :
    (itemsOf p e bs : List F)[m]? = (itemsOf p e bs')[m]? := by
  have hs := size_pos p
  have hdiv : ∀ n, L ≤ n → m < n / p.size := by
    intro n hn
    rw [Nat.lt_div_iff_mul_lt hs]
    have : (m + 1) * p.size = m * p.size + p.size := Nat.succ_mul _ _
    omega
  rw [itemsOf_get p e bs m (hdiv _ hl), itemsOf_get p e bs' m (hdiv _ hl')]
  have key : ∀ b : List Byte, (b.drop (m * p.size)).take p.size = ((b.take L).drop (m * p.size)).take p.size := by
    intro b
    rw [List.drop_take, List.take_take]
    congr 1
    have : (m + 1) * p.size = m * p.size + p.size := Nat.succ_mul _ _
    omega
  rw [key bs, key bs', h]

/-! ## Axes -/

def AxesIn : List (List Nat) → List Nat → Prop
  | [], [] => True
  | l :: ls, n :: s => (∀ i ∈ l, i < n) ∧ AxesIn ls s
  | _, _ => False

theorem AxesIn.length : ∀ {ls : List (List Nat)} {s : List Nat}, AxesIn ls s → ls.length = s.length
  | [], [], _ => rfl
  | _ :: _, _ :: _, h => by rw [List.length_cons, List.length_cons, h.2.length]
  | [], _ :: _, h => h.elim
  | _ :: _, [], h => h.elim

theorem pyIdx_lt {n : Nat} {z : Int} {i : Nat} (h : pyIdx n z = some i) : i < n := by
  unfold pyIdx at h
  split at h
  · split at h
    · injection h with h; omega
    · cases h
  · split at h
    · injection h with h; omega
    · cases h

theorem levAxes_in : ∀ {ls : List (List Int)} {s : List Nat} {A : List (List Nat)}, levAxes ls s = .ok A → AxesIn A s
  | [], s, A, h => by
    have : s.map List.range = A := by injection h
    subst this
    clear h
    induction s with
    | nil => trivial
    | cons n s ih => exact ⟨fun i hi => List.mem_range.1 hi, ih⟩
  | _ :: _, [], A, h => by cases h
  | l :: ls, n :: s, A, h => by
    unfold levAxes at h
    obtain ⟨is, h1, h⟩ := bind_ok_inv h
    obtain ⟨r, h2, h⟩ := bind_ok_inv h
    have : is :: r = A := by injection h
    subst this
    refine ⟨?_, levAxes_in h2⟩
    have key : ∀ (l : List Int) (is : List Nat), (l.mapM fun z => match pyIdx n z with
        | some i => Except.ok i
        | none => Except.error PyErr.indexError) = (.ok is : Py (List Nat)) → ∀ i ∈ is, i < n := by
      intro l
      induction l with
      | nil =>
        intro is h1
        have : [] = is := by injection h1
        subst this; simp
      | cons z l ih =>
        intro is h1
        rw [List.mapM_cons] at h1
        obtain ⟨k, h3, h1⟩ := bind_ok_inv h1
        obtain ⟨ks, h4, h1⟩ := bind_ok_inv h1
        have : k :: ks = is := by injection h1
        subst this
        intro i hi
        rcases List.mem_cons.1 hi with rfl | hi
        · cases hz : pyIdx n z with
          | none => rw [hz] at h3; cases h3
          | some j =>
            rw [hz] at h3
            have : j = i := by injection h3
            exact this ▸ pyIdx_lt hz
        · exact ih _ h4 i hi
    exact key l is h1

theorem sliceList_lt {n : Nat} {a b : Int} : ∀ i ∈ sliceList n a b, i < n := by
  intro i hi
  unfold sliceList at hi
  rw [List.mem_range'_1] at hi
  have h2 := hi.2
  unfold sliceOf at h2
  dsimp only at h2
  split at h2 <;> split at h2 <;> omega

theorem fromEnd_append {α : Type} (l : List α) (a b : α) : fromEnd (l ++ [a, b]) 0 = .ok b ∧ fromEnd (l ++ [a, b]) 1 = .ok a :=
  ⟨fromEnd_zero l a b, fromEnd_one l a b⟩

theorem axesIn_last2 : ∀ {A : List (List Nat)} {s : List Nat} {ny nx : Nat} {ls ms : List Nat}, AxesIn A (s ++ [ny, nx]) →
    (∀ i ∈ ls, i < ny) → (∀ i ∈ ms, i < nx) → AxesIn (A.take (A.length - 2) ++ [ls, ms]) (s ++ [ny, nx])
  | [a, b], [], ny, nx, ls, ms, _, h1, h2 => ⟨h1, h2, trivial⟩
  | [], [], _, _, _, _, h, _, _ => h.elim
  | [_], [], _, _, _, _, h, _, _ => h.2.elim
  | _ :: _ :: _ :: _, [], _, _, _, _, h, _, _ => h.2.2.elim
  | [], _ :: _, _, _, _, _, h, _, _ => h.elim
  | a :: A, n :: s, ny, nx, ls, ms, h, h1, h2 => by
    have hl : A.length = s.length + 2 := by have := h.2.length; simpa using this
    have ih := axesIn_last2 (A := A) (s := s) h.2 h1 h2
    have e : (a :: A).length - 2 = (A.length - 2) + 1 := by rw [List.length_cons]; omega
    rw [e, List.take_succ_cons, List.cons_append, List.cons_append]
    exact ⟨h.1, ih⟩

theorem sourceAxes_in {args : RdArgs F} {s : List Nat} {src : Option (Int × Int × Int × Int)} {A : List (List Nat)}
    (h : sourceAxes args s src = .ok A) : AxesIn A s := by
  unfold sourceAxes at h
  obtain ⟨A0, h1, h⟩ := bind_ok_inv h
  have hin := levAxes_in h1
  cases src with
  | none =>
    have : A0 = A := by injection h
    exact this ▸ hin
  | some w =>
    obtain ⟨I0, Ie, J0, Je⟩ := w
    dsimp only at h
    unfold sliceLast2 at h
    obtain ⟨ny, h2, h⟩ := bind_ok_inv h
    obtain ⟨nx, h3, h⟩ := bind_ok_inv h
    have hA : A0.take (A0.length - 2) ++ [sliceList ny J0 Je, sliceList nx I0 Ie] = A := by injection h
    subst hA
    -- the shape ends in ny, nx
    obtain ⟨s0, hs⟩ : ∃ s0, s = s0 ++ [ny, nx] := by
      unfold fromEnd at h2 h3
      cases hr : s.reverse with
      | nil => rw [hr] at h3; cases h3
      | cons x r => cases r with
        | nil => rw [hr] at h2; cases h2
        | cons y r =>
          rw [hr] at h2 h3
          have e2 : y = ny := by injection h2
          have e3 : x = nx := by injection h3
          refine ⟨r.reverse, ?_⟩
          have := congrArg List.reverse hr
          rw [List.reverse_reverse] at this
          rw [this, e2, e3]; simp
    subst hs
    exact axesIn_last2 hin sliceList_lt sliceList_lt

theorem pick_in : ∀ {A : List (List Nat)} {s q : List Nat}, AxesIn A s → InShape (A.map List.length) q → InShape s (NdArr.pick A q)
  | [], [], [], _, _ => trivial
  | l :: A, n :: s, i :: q, h, hq => by
    refine ⟨?_, pick_in h.2 hq.2⟩
    have hi : i < l.length := hq.1
    apply h.1
    show l.getD i 0 ∈ l
    rw [List.getD_eq_getElem?_getD, List.getElem?_eq_getElem hi]
    exact List.getElem_mem hi
  | [], [], _ :: _, _, h => h.elim
  | [], _ :: _, _, h, _ => h.elim
  | _ :: _, [], _, h, _ => h.elim
  | _ :: _, _ :: _, [], _, h => h.elim

theorem cast_in : ∀ {v t idx : List Nat}, NdArr.castable v t = true → InShape t idx →
    InShape v (List.zipWith (fun n i => if n = 1 then 0 else i) v idx)
  | [], [], [], _, _ => trivial
  | n :: v, m :: t, i :: idx, h, hi => by
    unfold NdArr.castable at h
    rw [List.zip_cons_cons, List.all_cons] at h
    simp only [List.length_cons, Bool.and_eq_true, decide_eq_true_eq, Bool.or_eq_true] at h
    have h0 : i < m := hi.1
    refine ⟨?_, cast_in (t := t) ?_ hi.2⟩
    · show (if n = 1 then 0 else i) < n
      split <;> omega
    · unfold NdArr.castable
      simp only [Bool.and_eq_true, decide_eq_true_eq]
      exact ⟨by omega, h.2.2⟩
  | [], _ :: _, _, h, _ => by simp [NdArr.castable] at h
  | _ :: _, [], _, h, _ => by simp [NdArr.castable] at h
  | [], [], _ :: _, _, h => h.elim
  | _ :: _, _ :: _, [], _, h => h.elim

theorem ravel_lt' : ∀ {s idx : List Nat}, InShape s idx → ravel s idx < prodL s := by
  intro s idx h
  have h1 := indices_ravel h
  have := (List.getElem?_eq_some_iff.1 h1).1
  rwa [indices_length] at this

/-! ## All records at once -/

theorem assign_records {n : Nat} {vs : List Nat} (arr : NdArr F) (iit : Nat) (pos : List Nat → List Nat) (val : Nat → List Nat → F) :
    (indices (n :: vs)).foldl (fun a idx => a.set (iit :: idx.take 1 ++ pos (idx.drop 1)) (val (idx.getD 0 0) (idx.drop 1))) arr =
      (List.range n).foldl (fun a i => (indices vs).foldl (fun a idx => a.set (iit :: i :: pos idx) (val i idx)) a) arr := by
  show ((List.range n).flatMap fun i => (indices vs).map (i :: ·)).foldl _ arr = _
  rw [List.foldl_flatMap]
  congr 1
  funext a i
  rw [List.foldl_map]
  rfl

theorem foldl_congr_mem {α β : Type} {f g : β → α → β} : ∀ {l : List α} {b : β}, (∀ x ∈ l, ∀ b, f b x = g b x) → l.foldl f b = l.foldl g b
  | [], _, _ => rfl
  | a :: l, b, h => by
    rw [List.foldl_cons, List.foldl_cons, h a (by simp)]
    exact foldl_congr_mem fun x hx => h x (by simp [hx])

end SG
