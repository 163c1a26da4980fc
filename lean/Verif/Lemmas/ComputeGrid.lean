import Verif.Model.ComputeGrid
import Verif.Lemmas.Lists

set_option linter.unusedSectionVars false

namespace SG
variable {F : Type}

theorem Py.ok_bind {α β : Type} (x : α) (f : α → Py β) : ((Except.ok x : Py α) >>= f) = f x := rfl

theorem Mat.at'_ok {α : Type} (m : Mat α) (i j : Nat) (hi : i < m.rows) (hj : j < m.cols) :
    m.at' i j = .ok (m.get i j) := by
  unfold Mat.at'; rw [if_pos ⟨hi, hj⟩]

/-- Loop rule for a doubly nested loop in which iteration `(i,j)` overwrites exactly the cells it owns. -/
theorem forIJ_paint {S V : Type} (n m : Nat) (body : S → Nat → Nat → Py S)
    (obs : S → Nat → Nat → V) (Good : S → Prop) (owner : Nat → Nat → Option (Nat × Nat))
    (val : Nat → Nat → V) (s0 : S) (hg : Good s0)
    (hstep : ∀ s i j, i < n → j < m → Good s →
      (∀ r c, owner r c = none → obs s r c = obs s0 r c) →
      ∃ s', body s i j = .ok s' ∧ Good s' ∧
        ∀ r c, obs s' r c = if owner r c = some (i, j) then val r c else obs s r c) :
    ∃ s', forIJ (List.range n) (List.range m) body s0 = .ok s' ∧ Good s' ∧
      ∀ r c, obs s' r c =
        match owner r c with
        | some (i, j) => if i < n ∧ j < m then val r c else obs s0 r c
        | none => obs s0 r c := by
  unfold forIJ
  obtain ⟨s', h1, h2, h3⟩ := range_loop n
    (fun (s : S) i => (List.range m).foldlM (fun s j => body s i j) s)
    (fun k (s : S) => Good s ∧ ∀ r c, obs s r c =
        match owner r c with
        | some (i, j) => if i < k ∧ j < m then val r c else obs s0 r c
        | none => obs s0 r c) s0
    (by
      refine ⟨hg, fun r c => ?_⟩
      cases owner r c with
      | none => rfl
      | some p => simp)
    (by
      intro k s hk ⟨hgs, hs⟩
      obtain ⟨s', g1, g2, g3⟩ := range_loop m (fun s j => body s k j)
        (fun l (s : S) => Good s ∧ ∀ r c, obs s r c =
          match owner r c with
          | some (i, j) => if (i < k ∧ j < m) ∨ (i = k ∧ j < l) then val r c else obs s0 r c
          | none => obs s0 r c) s
        (by
          refine ⟨hgs, fun r c => ?_⟩
          rw [hs]
          cases owner r c with
          | none => rfl
          | some p => simp)
        (by
          intro l t hl ⟨hgt, ht⟩
          obtain ⟨t', e1, e2, e3⟩ := hstep t k l hk hl hgt (by
            intro r c ho; rw [ht, ho])
          refine ⟨t', e1, e2, fun r c => ?_⟩
          rw [e3, ht]
          cases ho : owner r c with
          | none => simp
          | some p =>
            obtain ⟨i, j⟩ := p
            simp only [Option.some.injEq, Prod.mk.injEq]
            by_cases h : i = k ∧ j = l
            · rw [if_pos h, if_pos (by omega)]
            · rw [if_neg h]
              have : ((i < k ∧ j < m) ∨ (i = k ∧ j < l)) ↔ ((i < k ∧ j < m) ∨ (i = k ∧ j < l + 1)) := by
                omega
              by_cases h2 : (i < k ∧ j < m) ∨ (i = k ∧ j < l)
              · rw [if_pos h2, if_pos (this.1 h2)]
              · rw [if_neg h2, if_neg (fun hh => h2 (this.2 hh))])
      refine ⟨s', g1, g2, fun r c => ?_⟩
      rw [g3]
      cases owner r c with
      | none => rfl
      | some p =>
        obtain ⟨i, j⟩ := p
        have : ((i < k ∧ j < m) ∨ (i = k ∧ j < m)) ↔ (i < k + 1 ∧ j < m) := by omega
        by_cases h2 : (i < k ∧ j < m) ∨ (i = k ∧ j < m)
        · simp only [if_pos h2, if_pos (this.1 h2)]
        · simp only [if_neg h2, if_neg (fun hh => h2 (this.2 hh))])
  exact ⟨s', h1, h2, h3⟩

/-! ### slices -/

theorem sliceLen_mul (a p D : Nat) (hD : 0 < D) : sliceLen a (a + p * D) D = p := by
  unfold sliceLen
  have : a + p * D - a + (D - 1) = (D - 1) + D * p := by rw [Nat.mul_comm]; omega
  rw [this, Nat.add_mul_div_left _ _ hD, Nat.div_eq_of_lt (by omega)]; omega

theorem sliceLen_mul_succ (a p D : Nat) (hD : 0 < D) : sliceLen a (a + p * D + 1) D = p + 1 := by
  unfold sliceLen
  have : a + p * D + 1 - a + (D - 1) = D * (p + 1) := by
    rw [Nat.mul_add, Nat.mul_comm D p]; omega
  rw [this, Nat.mul_div_cancel_left _ hD]

theorem sliceLen_one (a b : Nat) : sliceLen a b 1 = b - a := by simp [sliceLen]

/-! ### division by strides -/

theorem div_mod_inside (x D i : Nat) (hD : 0 < D) :
    (x % D ≠ 0 ∧ x / D = i) ↔ (i * D < x ∧ x < (i + 1) * D) := by
  have e := Nat.div_add_mod x D
  have hm := Nat.mod_lt x hD
  constructor
  · rintro ⟨h, rfl⟩
    rw [Nat.add_mul, Nat.mul_comm]; omega
  · rintro ⟨h1, h2⟩
    have : x / D = i := by
      apply Nat.div_eq_of_lt_le
      · omega
      · exact h2
    refine ⟨?_, this⟩
    intro h0
    rw [this, h0, Nat.mul_comm] at e
    omega

theorem div_mod_node (x D j : Nat) (hD : 0 < D) : (x % D = 0 ∧ x / D = j) ↔ x = j * D := by
  constructor
  · rintro ⟨h, rfl⟩
    have e := Nat.div_add_mod x D
    rw [Nat.mul_comm] at e; omega
  · rintro rfl
    exact ⟨Nat.mul_mod_left _ _, Nat.mul_div_cancel _ hD⟩

variable [PyFloat F]

/-! ### edges -/

/-- Closed form of the x-edges. -/
def exVal (geod : Geod F) (xg yg : Mat F) (ilb iub jlb jub i j : Nat) : F :=
  if ilb ≤ i ∧ i < iub ∧ jlb ≤ j ∧ j < jub + 1 then
    geod.inv (xg.get i j) (yg.get i j) (xg.get (i + 1) j) (yg.get (i + 1) j)
  else Arith.zero

def eyVal (geod : Geod F) (xg yg : Mat F) (ilb iub jlb jub i j : Nat) : F :=
  if ilb ≤ i ∧ i < iub + 1 ∧ jlb ≤ j ∧ j < jub then
    geod.inv (xg.get i j) (yg.get i j) (xg.get i (j + 1)) (yg.get i (j + 1))
  else Arith.zero

theorem edges_spec (geod : Geod F) (xg yg : Mat F) (ilb iub jlb jub : Nat)
    (hr : yg.rows = xg.rows) (hc : yg.cols = xg.cols) (hi : iub < xg.rows) (hj : jub < xg.cols) :
    ∃ ex ey, edges geod xg yg ilb iub jlb jub = .ok (ex, ey) ∧
      ex.rows = xg.rows - 1 ∧ ex.cols = xg.cols ∧ ey.rows = xg.rows ∧ ey.cols = xg.cols - 1 ∧
      (∀ i j, ex.get i j = exVal geod xg yg ilb iub jlb jub i j) ∧
      (∀ i j, ey.get i j = eyVal geod xg yg ilb iub jlb jub i j) := by
  obtain ⟨ex, h1, h2, h3, h4⟩ := assignLoop_spec ilb iub jlb (jub + 1) (fun i j => do
      let lon1 ← xg.at' i j
      let lat1 ← yg.at' i j
      let lon2 ← xg.at' (i + 1) j
      let lat2 ← yg.at' (i + 1) j
      return some (geod.inv lon1 lat1 lon2 lat2))
    (Mat.full (xg.rows - 1) xg.cols (Arith.zero : F))
    (fun i j => some (geod.inv (xg.get i j) (yg.get i j) (xg.get (i + 1) j) (yg.get (i + 1) j)))
    (by
      intro i j _ _ _ _
      rw [xg.at'_ok i j (by omega) (by omega), yg.at'_ok i j (by omega) (by omega),
        xg.at'_ok (i + 1) j (by omega) (by omega), yg.at'_ok (i + 1) j (by omega) (by omega)]
      rfl)
    (by simp only [Mat.full]; omega) (by simp only [Mat.full]; omega)
  obtain ⟨ey, g1, g2, g3, g4⟩ := assignLoop_spec ilb (iub + 1) jlb jub (fun i j => do
      let lon1 ← xg.at' i j
      let lat1 ← yg.at' i j
      let lon2 ← xg.at' i (j + 1)
      let lat2 ← yg.at' i (j + 1)
      return some (geod.inv lon1 lat1 lon2 lat2))
    (Mat.full xg.rows (xg.cols - 1) (Arith.zero : F))
    (fun i j => some (geod.inv (xg.get i j) (yg.get i j) (xg.get i (j + 1)) (yg.get i (j + 1))))
    (by
      intro i j _ _ _ _
      rw [xg.at'_ok i j (by omega) (by omega), yg.at'_ok i j (by omega) (by omega),
        xg.at'_ok i (j + 1) (by omega) (by omega), yg.at'_ok i (j + 1) (by omega) (by omega)]
      rfl)
    (by simp only [Mat.full]; omega) (by simp only [Mat.full]; omega)
  refine ⟨ex, ey, ?_, h2, h3, g2, g3, ?_, ?_⟩
  · unfold edges
    rw [if_neg (by omega)]
    dsimp only
    rw [h1, Py.ok_bind, g1]
    rfl
  · intro i j; rw [h4]; simp only [exVal, Mat.full, Option.getD_some]
  · intro i j; rw [g4]; simp only [eyVal, Mat.full, Option.getD_some]

/-! ### fill -/

/-- Both coordinates of a point. -/
def pt (s : Mat F × Mat F) (i j : Nat) : F × F := (s.1.get i j, s.2.get i j)

/-- `k`-th of `n` subdivision points between two points, longitude adjusted. -/
def sub (geod : Geod F) (wrap : Bool) (n k : Nat) (p q : F × F) : F × F :=
  let r := geod.npt p.1 p.2 q.1 q.2 n k
  (adjustLon wrap r.1, r.2)

def wraps (xg : Mat F) : Bool := !(xg.toList.any fun x => PyFloat.lt x Arith.zero)

/-- Closed form of step 1. -/
def fill1 (geod : Geod F) (wrap : Bool) (s : Mat F × Mat F) (ilb iub jlb jub DI DJ r c : Nat) : F × F :=
  if ilb ≤ r ∧ r ≤ iub ∧ jlb ≤ c ∧ c ≤ jub ∧ (c - jlb) % DJ = 0 ∧ (r - ilb) % DI ≠ 0 then
    sub geod wrap (DI - 1) ((r - ilb) % DI - 1) (pt s (ilb + (r - ilb) / DI * DI) c)
      (pt s (ilb + ((r - ilb) / DI + 1) * DI) c)
  else pt s r c

/-- Closed form of step 2. -/
def fill2 (geod : Geod F) (wrap : Bool) (s : Mat F × Mat F) (ilb iub jlb jub DI DJ r c : Nat) : F × F :=
  if ilb ≤ r ∧ r ≤ iub ∧ jlb ≤ c ∧ c ≤ jub ∧ (c - jlb) % DJ ≠ 0 then
    sub geod wrap (DJ - 1) ((c - jlb) % DJ - 1)
      (fill1 geod wrap s ilb iub jlb jub DI DJ r (jlb + (c - jlb) / DJ * DJ))
      (fill1 geod wrap s ilb iub jlb jub DI DJ r (jlb + ((c - jlb) / DJ + 1) * DJ))
  else fill1 geod wrap s ilb iub jlb jub DI DJ r c

theorem fill_spec (geod : Geod F) (xg yg : Mat F) (ilb jlb p q ls lt : Nat)
    (hr : yg.rows = xg.rows) (hc : yg.cols = xg.cols)
    (hp : 0 < p) (hq : 0 < q) (hls : 0 < ls) (hlt : 0 < lt)
    (hi : ilb + p * (2 * ls) < xg.rows) (hj : jlb + q * (2 * lt) < xg.cols) :
    ∃ s, fill geod xg yg ilb (ilb + p * (2 * ls)) jlb (jlb + q * (2 * lt)) ls lt = .ok s ∧
      s.1.rows = xg.rows ∧ s.1.cols = xg.cols ∧ s.2.rows = xg.rows ∧ s.2.cols = xg.cols ∧
      ∀ r c, pt s r c = fill2 geod (wraps xg) (xg, yg) ilb (ilb + p * (2 * ls)) jlb
        (jlb + q * (2 * lt)) (2 * ls) (2 * lt) r c := by
  have hDI : 0 < 2 * ls := by omega
  have hDJ : 0 < 2 * lt := by omega
  let Good : Mat F × Mat F → Prop := fun s =>
    s.1.rows = xg.rows ∧ s.1.cols = xg.cols ∧ s.2.rows = xg.rows ∧ s.2.cols = xg.cols
  have pmono : ∀ (i p D : Nat), i < p → (i + 1) * D ≤ p * D :=
    fun i p D h => Nat.mul_le_mul_right _ h
  -- step 1
  let owner1 : Nat → Nat → Option (Nat × Nat) := fun r c =>
    if ilb ≤ r ∧ jlb ≤ c ∧ (c - jlb) % (2 * lt) = 0 ∧ (r - ilb) % (2 * ls) ≠ 0 then
      some ((r - ilb) / (2 * ls), (c - jlb) / (2 * lt)) else none
  have own1 : ∀ r c i j, owner1 r c = some (i, j) ↔
      (c = jlb + j * (2 * lt) ∧ ilb + i * (2 * ls) + 1 ≤ r ∧ r < ilb + (i + 1) * (2 * ls)) := by
    intro r c i j
    simp only [owner1]
    have A := div_mod_inside (r - ilb) (2 * ls) i hDI
    have B := div_mod_node (c - jlb) (2 * lt) j hDJ
    constructor
    · intro h
      split at h
      · rename_i hh
        simp only [Option.some.injEq, Prod.mk.injEq] at h
        have := A.1 ⟨hh.2.2.2, h.1⟩
        have := B.1 ⟨hh.2.2.1, h.2⟩
        omega
      · cases h
    · rintro ⟨h1, h2, h3⟩
      have a := A.2 ⟨by omega, by omega⟩
      have b := B.2 (by omega)
      rw [if_pos ⟨by omega, by omega, b.1, a.1⟩, a.2, b.2]
  obtain ⟨s1, e1, g1, v1⟩ := forIJ_paint p (q + 1)
    (fun s i j => fillX geod (wraps xg) ls s
      (ilb + i * 2 * ls) (ilb + (i + 1) * 2 * ls) (jlb + j * 2 * lt))
    (fun s r c => pt s r c) Good owner1
    (fun r c => sub geod (wraps xg) (2 * ls - 1) ((r - ilb) % (2 * ls) - 1)
      (pt (xg, yg) (ilb + (r - ilb) / (2 * ls) * (2 * ls)) c)
      (pt (xg, yg) (ilb + ((r - ilb) / (2 * ls) + 1) * (2 * ls)) c)) (xg, yg)
    ⟨rfl, rfl, hr, hc⟩
    (by
      intro s i j hi' hj' ⟨w1, w2, w3, w4⟩ hun
      have m1 := pmono i p (2 * ls) hi'
      have m2 : j * (2 * lt) ≤ q * (2 * lt) := Nat.mul_le_mul_right _ (by omega)
      have c1 : i * 2 * ls = i * (2 * ls) := Nat.mul_assoc _ _ _
      have c2 : (i + 1) * 2 * ls = (i + 1) * (2 * ls) := Nat.mul_assoc _ _ _
      have c3 : j * 2 * lt = j * (2 * lt) := Nat.mul_assoc _ _ _
      have c4 : i * (2 * ls) ≤ (i + 1) * (2 * ls) := Nat.mul_le_mul_right _ (by omega)
      have c5 : (i + 1) * (2 * ls) = i * (2 * ls) + 2 * ls := by rw [Nat.add_mul]; omega
      rw [c1, c2, c3]
      -- end points are untouched
      have hn1 : owner1 (ilb + i * (2 * ls)) (jlb + j * (2 * lt)) = none := by
        cases ho : owner1 (ilb + i * (2 * ls)) (jlb + j * (2 * lt)) with
        | none => rfl
        | some x =>
          simp only [owner1] at ho
          rw [if_neg (by rw [Nat.add_sub_cancel_left, Nat.mul_mod_left]; simp)] at ho
          cases ho
      have hn2 : owner1 (ilb + (i + 1) * (2 * ls)) (jlb + j * (2 * lt)) = none := by
        cases ho : owner1 (ilb + (i + 1) * (2 * ls)) (jlb + j * (2 * lt)) with
        | none => rfl
        | some x =>
          simp only [owner1] at ho
          rw [if_neg (by rw [Nat.add_sub_cancel_left, Nat.add_sub_cancel_left, Nat.mul_mod_left, Nat.mul_mod_left]; simp)] at ho
          cases ho
      have p1 := hun _ _ hn1
      have p2 := hun _ _ hn2
      simp only [pt, Prod.mk.injEq] at p1 p2
      unfold fillX
      simp only
      rw [s.1.at'_ok _ _ (by omega) (by omega), s.2.at'_ok _ _ (by omega) (by omega),
        s.1.at'_ok _ _ (by omega) (by omega), s.2.at'_ok _ _ (by omega) (by omega)]
      refine ⟨_, rfl, ⟨w1, w2, w3, w4⟩, fun r c => ?_⟩
      simp only [pt]
      by_cases ho : owner1 r c = some (i, j)
      · have hh := (own1 r c i j).1 ho
        have A := (div_mod_inside (r - ilb) (2 * ls) i hDI).2 ⟨by omega, by omega⟩
        have em := Nat.div_add_mod (r - ilb) (2 * ls)
        rw [if_pos ho]
        have hcond : c = jlb + j * (2 * lt) ∧ ilb + i * (2 * ls) + 1 ≤ r ∧
            r < ilb + (i + 1) * (2 * ls) := hh
        simp only [if_pos hcond]
        rw [A.2, Nat.mul_comm] at em
        have k : r - (ilb + i * (2 * ls) + 1) = (r - ilb) % (2 * ls) - 1 := by omega
        simp only [sub, A.2, p1.1, p1.2, p2.1, p2.2, hh.1, k, Nat.mul_comm ls 2]
      · have hcond : ¬ (c = jlb + j * (2 * lt) ∧ ilb + i * (2 * ls) + 1 ≤ r ∧
            r < ilb + (i + 1) * (2 * ls)) := fun h => ho ((own1 r c i j).2 h)
        rw [if_neg ho, if_neg hcond, if_neg hcond])
  have v1' : ∀ r c, pt s1 r c = fill1 geod (wraps xg) (xg, yg) ilb (ilb + p * (2 * ls)) jlb
        (jlb + q * (2 * lt)) (2 * ls) (2 * lt) r c := by
    intro r c
    rw [v1]
    unfold fill1
    by_cases h : ilb ≤ r ∧ jlb ≤ c ∧ (c - jlb) % (2 * lt) = 0 ∧ (r - ilb) % (2 * ls) ≠ 0
    · have ho : owner1 r c = some ((r - ilb) / (2 * ls), (c - jlb) / (2 * lt)) := if_pos h
      rw [ho]
      simp only
      have A := (div_mod_inside (r - ilb) (2 * ls) _ hDI).1 ⟨h.2.2.2, rfl⟩
      have B := (div_mod_node (c - jlb) (2 * lt) _ hDJ).1 ⟨h.2.2.1, rfl⟩
      have iff1 : (r - ilb) / (2 * ls) < p ↔ r ≤ ilb + p * (2 * ls) := by
        rw [Nat.div_lt_iff_lt_mul hDI]
        constructor
        · omega
        · intro hle
          rcases Nat.lt_or_ge (r - ilb) (p * (2 * ls)) with hlt | hge
          · exact hlt
          · exfalso
            have : r - ilb = p * (2 * ls) := by omega
            have := (div_mod_node (r - ilb) (2 * ls) p hDI).2 this
            omega
      have iff2 : (c - jlb) / (2 * lt) < q + 1 ↔ c ≤ jlb + q * (2 * lt) := by
        rw [Nat.lt_succ_iff]
        constructor
        · intro hle
          have := Nat.mul_le_mul_right (2 * lt) hle
          omega
        · intro hle
          have : (c - jlb) / (2 * lt) * (2 * lt) ≤ q * (2 * lt) := by omega
          exact Nat.le_of_mul_le_mul_right this hDJ
      by_cases hw : (r - ilb) / (2 * ls) < p ∧ (c - jlb) / (2 * lt) < q + 1
      · rw [if_pos hw, if_pos ⟨h.1, iff1.1 hw.1, h.2.1, iff2.1 hw.2, h.2.2.1, h.2.2.2⟩]
      · rw [if_neg hw, if_neg (fun hh => hw ⟨iff1.2 hh.2.1, iff2.2 hh.2.2.2.1⟩)]
    · have ho : owner1 r c = none := if_neg h
      rw [ho, if_neg (fun hh => h ⟨hh.1, hh.2.2.1, hh.2.2.2.2.1, hh.2.2.2.2.2⟩)]
  -- step 2
  let owner2 : Nat → Nat → Option (Nat × Nat) := fun r c =>
    if ilb ≤ r ∧ jlb ≤ c ∧ (c - jlb) % (2 * lt) ≠ 0 then
      some (r - ilb, (c - jlb) / (2 * lt)) else none
  have own2 : ∀ r c i j, owner2 r c = some (i, j) ↔
      (r = ilb + i ∧ jlb + j * (2 * lt) + 1 ≤ c ∧ c < jlb + (j + 1) * (2 * lt)) := by
    intro r c i j
    simp only [owner2]
    have A := div_mod_inside (c - jlb) (2 * lt) j hDJ
    constructor
    · intro h
      split at h
      · rename_i hh
        simp only [Option.some.injEq, Prod.mk.injEq] at h
        have := A.1 ⟨hh.2.2, h.2⟩
        omega
      · cases h
    · rintro ⟨h1, h2, h3⟩
      have a := A.2 ⟨by omega, by omega⟩
      rw [if_pos ⟨by omega, by omega, a.1⟩, a.2]
      simp only [Option.some.injEq, Prod.mk.injEq, and_true]; omega
  obtain ⟨s2, e2, g2, v2⟩ := forIJ_paint (p * (2 * ls) + 1) q
    (fun s i j => fillY geod (wraps xg) lt s
      (ilb + i) (jlb + j * 2 * lt) (jlb + (j + 1) * 2 * lt))
    (fun s r c => pt s r c) Good owner2
    (fun r c => sub geod (wraps xg) (2 * lt - 1) ((c - jlb) % (2 * lt) - 1)
      (pt s1 r (jlb + (c - jlb) / (2 * lt) * (2 * lt)))
      (pt s1 r (jlb + ((c - jlb) / (2 * lt) + 1) * (2 * lt)))) s1 g1
    (by
      intro s i j hi' hj' ⟨w1, w2, w3, w4⟩ hun
      have m1 := pmono j q (2 * lt) hj'
      have c2 : (j + 1) * 2 * lt = (j + 1) * (2 * lt) := Nat.mul_assoc _ _ _
      have c3 : j * 2 * lt = j * (2 * lt) := Nat.mul_assoc _ _ _
      have c5 : (j + 1) * (2 * lt) = j * (2 * lt) + 2 * lt := by rw [Nat.add_mul]; omega
      rw [c2, c3]
      have hn1 : owner2 (ilb + i) (jlb + j * (2 * lt)) = none := by
        cases ho : owner2 (ilb + i) (jlb + j * (2 * lt)) with
        | none => rfl
        | some x =>
          simp only [owner2] at ho
          rw [if_neg (by rw [Nat.add_sub_cancel_left, Nat.mul_mod_left]; simp)] at ho
          cases ho
      have hn2 : owner2 (ilb + i) (jlb + (j + 1) * (2 * lt)) = none := by
        cases ho : owner2 (ilb + i) (jlb + (j + 1) * (2 * lt)) with
        | none => rfl
        | some x =>
          simp only [owner2] at ho
          rw [if_neg (by rw [Nat.add_sub_cancel_left, Nat.mul_mod_left]; simp)] at ho
          cases ho
      have p1 := hun _ _ hn1
      have p2 := hun _ _ hn2
      simp only [pt, Prod.mk.injEq] at p1 p2
      unfold fillY
      simp only
      rw [s.1.at'_ok _ _ (by omega) (by omega), s.2.at'_ok _ _ (by omega) (by omega),
        s.1.at'_ok _ _ (by omega) (by omega), s.2.at'_ok _ _ (by omega) (by omega)]
      refine ⟨_, rfl, ⟨w1, w2, w3, w4⟩, fun r c => ?_⟩
      simp only [pt]
      by_cases ho : owner2 r c = some (i, j)
      · have hh := (own2 r c i j).1 ho
        have A := (div_mod_inside (c - jlb) (2 * lt) j hDJ).2 ⟨by omega, by omega⟩
        have em := Nat.div_add_mod (c - jlb) (2 * lt)
        rw [if_pos ho]
        simp only [if_pos hh]
        rw [A.2, Nat.mul_comm] at em
        have k : c - (jlb + j * (2 * lt) + 1) = (c - jlb) % (2 * lt) - 1 := by omega
        simp only [sub, A.2, p1.1, p1.2, p2.1, p2.2, hh.1, k, Nat.mul_comm lt 2]
      · have hcond : ¬ (r = ilb + i ∧ jlb + j * (2 * lt) + 1 ≤ c ∧
            c < jlb + (j + 1) * (2 * lt)) := fun h => ho ((own2 r c i j).2 h)
        rw [if_neg ho, if_neg hcond, if_neg hcond])
  refine ⟨s2, ?_, g2.1, g2.2.1, g2.2.2.1, g2.2.2.2, fun r c => ?_⟩
  · unfold fill
    have l1 : sliceLen ilb (min (ilb + p * (2 * ls)) xg.rows) (2 * ls) = p := by
      rw [Nat.min_eq_left (by omega), sliceLen_mul _ _ _ hDI]
    have l2 : sliceLen jlb (min (jlb + q * (2 * lt) + 1) xg.cols) (2 * lt) = q + 1 := by
      rw [Nat.min_eq_left (by omega), sliceLen_mul_succ _ _ _ hDJ]
    have l3 : sliceLen ilb (min (ilb + p * (2 * ls) + 1) xg.rows) 1 = p * (2 * ls) + 1 := by
      rw [Nat.min_eq_left (by omega), sliceLen_one]; omega
    have l4 : sliceLen jlb (min (jlb + q * (2 * lt)) xg.cols) (2 * lt) = q := by
      rw [Nat.min_eq_left (by omega), sliceLen_mul _ _ _ hDJ]
    simp only [l1, l2, l3, l4]
    have hw : (!(xg.toList.any fun x => PyFloat.lt x (Arith.zero : F))) = wraps xg := rfl
    rw [if_neg (by omega), if_neg (by omega), hw]
    rw [show forIJ (List.range p) (List.range (q + 1)) _ (xg, yg) = _ from e1]
    simp only [bind, Except.bind]
    rw [if_neg (by omega)]
    exact e2
  · rw [v2]
    unfold fill2
    by_cases h : ilb ≤ r ∧ jlb ≤ c ∧ (c - jlb) % (2 * lt) ≠ 0
    · have ho : owner2 r c = some (r - ilb, (c - jlb) / (2 * lt)) := if_pos h
      rw [ho]
      simp only
      have iff2 : (c - jlb) / (2 * lt) < q ↔ c ≤ jlb + q * (2 * lt) := by
        rw [Nat.div_lt_iff_lt_mul hDJ]
        constructor
        · omega
        · intro hle
          rcases Nat.lt_or_ge (c - jlb) (q * (2 * lt)) with hlt | hge
          · exact hlt
          · exfalso
            have : c - jlb = q * (2 * lt) := by omega
            have := (div_mod_node (c - jlb) (2 * lt) q hDJ).2 this
            omega
      by_cases hw : r - ilb < p * (2 * ls) + 1 ∧ (c - jlb) / (2 * lt) < q
      · rw [if_pos hw, if_pos ⟨h.1, by omega, h.2.1, iff2.1 hw.2, h.2.2⟩, v1', v1']
      · rw [if_neg hw, if_neg (fun hh => hw ⟨by omega, iff2.2 hh.2.2.2.1⟩), v1']
    · have ho : owner2 r c = none := if_neg h
      rw [ho, if_neg (fun hh => h ⟨hh.1, hh.2.2.1, hh.2.2.2.2⟩)]
      exact v1' r c

end SG
