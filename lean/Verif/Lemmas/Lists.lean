import Verif.Base.Py
/-! Generic list and loop lemmas. -/

namespace SG

theorem length_flatMap_const {α β : Type} (l : List α) (f : α → List β) (n : Nat)
    (h : ∀ x ∈ l, (f x).length = n) : (l.flatMap f).length = l.length * n := by
  induction l with
  | nil => simp
  | cons a t ih =>
    have h1 := h a (by simp)
    have h2 := ih (fun x hx => h x (by simp [hx]))
    simp only [List.flatMap_cons, List.length_append, List.length_cons, h1, h2]
    rw [Nat.add_mul]; omega

theorem getElem?_flatMap_const {α β : Type} (l : List α) (f : α → List β) (n : Nat)
    (h : ∀ x ∈ l, (f x).length = n) (q k : Nat) (hk : k < n) :
    (l.flatMap f)[q * n + k]? = l[q]?.bind fun x => (f x)[k]? := by
  induction l generalizing q with
  | nil => simp
  | cons a t ih =>
    have h1 := h a (by simp)
    have h2 := ih (fun x hx => h x (by simp [hx]))
    rw [List.flatMap_cons]
    cases q with
    | zero => simp only [Nat.zero_mul, Nat.zero_add]
              rw [List.getElem?_append_left (by omega)]; simp
    | succ q =>
      rw [List.getElem?_append_right (by rw [h1, Nat.add_mul]; omega)]
      rw [h1]
      have : (q + 1) * n + k - n = q * n + k := by rw [Nat.add_mul]; omega
      rw [this, h2]; simp

/-- Induction from the right end. -/
theorem snoc_ind {α : Type} {P : List α → Prop} (nil : P [])
    (snoc : ∀ l a, P l → P (l ++ [a])) (l : List α) : P l := by
  rw [← l.reverse_reverse]
  induction l.reverse with
  | nil => exact nil
  | cons a t ih => rw [List.reverse_cons]; exact snoc _ _ ih

/-- Loop rule: an invariant indexed by the number of completed iterations. -/
theorem foldlM_inv {σ β : Type} (l : List β) (f : σ → β → Py σ) (I : Nat → σ → Prop) (s0 : σ)
    (h0 : I 0 s0)
    (hstep : ∀ k (hk : k < l.length) s, I k s → ∃ s', f s l[k] = .ok s' ∧ I (k + 1) s') :
    ∃ s', l.foldlM f s0 = .ok s' ∧ I l.length s' := by
  induction l generalizing I s0 with
  | nil => exact ⟨s0, rfl, h0⟩
  | cons a t ih =>
    obtain ⟨s1, hs1, hI1⟩ := hstep 0 (by simp) s0 h0
    obtain ⟨s', hs', hI'⟩ := ih (fun k => I (k + 1)) s1 hI1 (by
      intro k hk s hs
      exact hstep (k + 1) (by simpa using hk) s hs)
    refine ⟨s', ?_, hI'⟩
    simp only [List.getElem_cons_zero] at hs1
    simp only [List.foldlM_cons, hs1]
    exact hs'

/-- Loop rule for `for k in range(a,b)`. -/
theorem pyRange_loop {σ : Type} (a b : Nat) (f : σ → Nat → Py σ) (I : Nat → σ → Prop) (s0 : σ)
    (h0 : I a s0)
    (hstep : ∀ k s, a ≤ k → k < b → I k s → ∃ s', f s k = .ok s' ∧ I (k + 1) s') :
    ∃ s', (pyRange a b).foldlM f s0 = .ok s' ∧ I (max a b) s' := by
  have := foldlM_inv (pyRange a b) f (fun k => I (a + k)) s0 h0 (by
    intro k hk s hs
    simp only [pyRange, List.length_range'] at hk
    obtain ⟨s', h1, h2⟩ := hstep (a + k) s (by omega) (by omega) hs
    refine ⟨s', ?_, h2⟩
    simpa [pyRange] using h1)
  obtain ⟨s', h1, h2⟩ := this
  refine ⟨s', h1, ?_⟩
  simp only [pyRange, List.length_range'] at h2
  have : a + (b - a) = max a b := by omega
  rwa [this] at h2

theorem range_loop {σ : Type} (n : Nat) (f : σ → Nat → Py σ) (I : Nat → σ → Prop) (s0 : σ)
    (h0 : I 0 s0)
    (hstep : ∀ k s, k < n → I k s → ∃ s', f s k = .ok s' ∧ I (k + 1) s') :
    ∃ s', (List.range n).foldlM f s0 = .ok s' ∧ I n s' := by
  have := foldlM_inv (List.range n) f I s0 h0 (by
    intro k hk s hs
    simp only [List.length_range] at hk
    simpa using hstep k s hk hs)
  simpa using this

/-- Loop rule for a doubly nested loop writing one array element per iteration. -/
theorem assignLoop_spec {α : Type} (i0 i1 j0 j1 : Nat) (expr : Nat → Nat → Py (Option α)) (m : Mat α)
    (val : Nat → Nat → Option α)
    (he : ∀ i j, i0 ≤ i → i < i1 → j0 ≤ j → j < j1 → expr i j = .ok (val i j))
    (hi : i1 ≤ m.rows) (hj : j1 ≤ m.cols) :
    ∃ m', assignLoop i0 i1 j0 j1 expr m = .ok m' ∧ m'.rows = m.rows ∧ m'.cols = m.cols ∧
      ∀ i j, m'.get i j =
        if i0 ≤ i ∧ i < i1 ∧ j0 ≤ j ∧ j < j1 then (val i j).getD (m.get i j) else m.get i j := by
  unfold assignLoop forIJ
  obtain ⟨m', h1, h2, h3, h4⟩ := pyRange_loop i0 i1
    (fun (s : Mat α) i => (pyRange j0 j1).foldlM (fun (s : Mat α) j => do
      match ← expr i j with
      | some v => s.setAt i j v
      | none => pure s) s)
    (fun k (m' : Mat α) => m'.rows = m.rows ∧ m'.cols = m.cols ∧
      ∀ i j, m'.get i j =
        if i0 ≤ i ∧ i < k ∧ j0 ≤ j ∧ j < j1 then (val i j).getD (m.get i j) else m.get i j) m
    (by refine ⟨rfl, rfl, fun i j => ?_⟩; rw [if_neg (by omega)])
    (by
      intro k s hk0 hk1 ⟨hr, hc, hg⟩
      obtain ⟨s', g1, g2, g3, g4⟩ := pyRange_loop j0 j1
        (fun (s : Mat α) j => do
          match ← expr k j with
          | some v => s.setAt k j v
          | none => pure s)
        (fun l (m' : Mat α) => m'.rows = m.rows ∧ m'.cols = m.cols ∧
          ∀ i j, m'.get i j =
            if (i0 ≤ i ∧ i < k ∧ j0 ≤ j ∧ j < j1) ∨ (i = k ∧ j0 ≤ j ∧ j < l)
            then (val i j).getD (m.get i j) else m.get i j) s
        (by refine ⟨hr, hc, fun i j => ?_⟩
            rw [hg]
            by_cases h : i0 ≤ i ∧ i < k ∧ j0 ≤ j ∧ j < j1
            · rw [if_pos h, if_pos (Or.inl h)]
            · rw [if_neg h, if_neg (by omega)])
        (by
          intro l t hl0 hl1 ⟨tr, tc, tg⟩
          rw [he k l hk0 hk1 hl0 hl1]
          cases hv : val k l with
          | none =>
            refine ⟨t, rfl, tr, tc, fun i j => ?_⟩
            rw [tg]
            by_cases e : i = k ∧ j = l
            · obtain ⟨rfl, rfl⟩ := e
              rw [hv]; simp
            · congr 1; simp only [eq_iff_iff]; omega
          | some v =>
            refine ⟨t.set k l v, ?_, tr, tc, fun i j => ?_⟩
            · show t.setAt k l v = _
              unfold Mat.setAt
              rw [if_pos (by omega)]
            · simp only [Mat.set]
              by_cases e : i = k ∧ j = l
              · rw [if_pos e]; obtain ⟨rfl, rfl⟩ := e
                rw [if_pos (by omega), hv]; rfl
              · rw [if_neg e, tg]; congr 1; simp only [eq_iff_iff]; omega)
      refine ⟨s', g1, g2, g3, fun i j => ?_⟩
      rw [g4]; congr 1; simp only [eq_iff_iff]; omega)
  refine ⟨m', h1, h2, h3, fun i j => ?_⟩
  rw [h4]; congr 1; simp only [eq_iff_iff]; omega

end SG
