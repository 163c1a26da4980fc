import Verif.Lemmas.Nearest
/-! # C10–C12: nearest-neighbour search -/

set_option linter.unusedSectionVars false

namespace SG
variable {F : Type} [PyFloat F] (geod : Geod F) (lon lat : F)

/-- Distance from the query point to matrix point `(i,j)`. -/
def Spec.dist (lons lats : Mat F) (i j : Nat) : F := geod.inv lon lat (lons.get i j) (lats.get i j)

/-- `lons` and `lats` are non-empty matrices of equal shape. -/
def Spec.SameShape (lons lats : NArr F) : Prop :=
  lons.mat.rows = lats.mat.rows ∧ lons.mat.cols = lats.mat.cols ∧
    0 < lons.mat.rows ∧ 0 < lons.mat.cols

/-- Everything `nearest` guarantees; C10-C12 are read off from it. -/
theorem nearest_spec [FloatOrder F] (lons lats : NArr F) (hs : Spec.SameShape lons lats) :
    ∃ i j d, nearest geod lon lat lons lats = .ok (i, j, d) ∧
     ((i = -1 ∧ j = -1 ∧ d = PyFloat.c1e10 ∧ ∀ p ∈ lons.order,
        PyFloat.lt (Spec.dist geod lon lat lons.mat lats.mat p.1 p.2) PyFloat.c1e10 = false) ∨
      ∃ pre p post, lons.order = pre ++ p :: post ∧ i = p.1 ∧ j = p.2 ∧
        d = Spec.dist geod lon lat lons.mat lats.mat p.1 p.2 ∧
        PyFloat.lt d PyFloat.c1e10 = true ∧
        (∀ q ∈ lons.order, PyFloat.lt (Spec.dist geod lon lat lons.mat lats.mat q.1 q.2) d = false) ∧
        (∀ q ∈ pre, PyFloat.le (Spec.dist geod lon lat lons.mat lats.mat q.1 q.2) d = false)) := by
  obtain ⟨h1, h2, h3, h4⟩ := hs
  have hp : lons.mat.rows * lons.mat.cols ≠ 0 := Nat.mul_ne_zero (by omega) (by omega)
  have hn : nearest geod lon lat lons lats =
      .ok (lons.order.foldl (nearestStep geod lon lat lons.mat lats.mat)
        (-1, -1, PyFloat.c1e10)) := by
    unfold nearest
    rw [if_neg (by omega), if_neg hp]
  rw [hn]
  have := nearest_fold_inv (fun p => Spec.dist geod lon lat lons.mat lats.mat p.1 p.2)
    PyFloat.c1e10 lons.order
  simp only at this
  rcases this with ⟨e, h⟩ | ⟨pre, p, post, e, h5, h6, h7, h8⟩
  · exact ⟨_, _, _, congrArg _ e, .inl ⟨rfl, rfl, rfl, h⟩⟩
  · exact ⟨_, _, _, congrArg _ h5, .inr ⟨pre, p, post, e, rfl, rfl, rfl, h6, h7, h8⟩⟩

/-- **C10**: when some matrix point is within 1e10 m, `nearest` returns the index of a matrix point, its
distance, and no matrix point is strictly closer (so a NaN distance is never returned: `d < 1e10`). -/
theorem C10_nearest_is_closest [FloatOrder F] (lons lats : NArr F) (hs : Spec.SameShape lons lats)
    (hw : lons.WF)
    (hex : ∃ i j, i < lons.mat.rows ∧ j < lons.mat.cols ∧
      PyFloat.lt (Spec.dist geod lon lat lons.mat lats.mat i j) PyFloat.c1e10 = true) :
    ∃ (i j : Nat) (d : F), nearest geod lon lat lons lats = .ok (i, j, d) ∧
      i < lons.mat.rows ∧ j < lons.mat.cols ∧
      d = Spec.dist geod lon lat lons.mat lats.mat i j ∧ PyFloat.lt d PyFloat.c1e10 = true ∧
      ∀ i' j', i' < lons.mat.rows → j' < lons.mat.cols →
        PyFloat.lt (Spec.dist geod lon lat lons.mat lats.mat i' j') d = false := by
  obtain ⟨i, j, d, hn, h⟩ := nearest_spec geod lon lat lons lats hs
  rcases h with ⟨_, _, _, h⟩ | ⟨pre, p, post, e, rfl, rfl, h3, h4, h5, _⟩
  · obtain ⟨i, j, hi, hj, hlt⟩ := hex
    have := h (i, j) ((hw.mem _).2 ⟨hi, hj⟩)
    rw [this] at hlt; cases hlt
  · have hp : p ∈ lons.order := by rw [e]; simp
    have := (hw.mem p).1 hp
    exact ⟨p.1, p.2, d, hn, this.1, this.2, h3, h4, fun i' j' hi hj => h5 (i', j') ((hw.mem _).2 ⟨hi, hj⟩)⟩

/-- **C11** (tie-breaking): every point visited before the returned one is not at an equal or smaller
distance. -/
theorem C11_tie_break [FloatOrder F] (lons lats : NArr F) (hs : Spec.SameShape lons lats)
    (hw : lons.WF) (i j : Nat) (d : F) (h : nearest geod lon lat lons lats = .ok (i, j, d))
    (pre post : List (Nat × Nat)) (ho : lons.order = pre ++ (i, j) :: post) :
    ∀ q ∈ pre, PyFloat.le (Spec.dist geod lon lat lons.mat lats.mat q.1 q.2) d = false := by
  obtain ⟨i', j', d', hn, hh⟩ := nearest_spec geod lon lat lons lats hs
  rw [hn] at h
  cases h
  rcases hh with ⟨h1, _⟩ | ⟨pre', p, post', e, h1, h2, _, _, _, h6⟩
  · omega
  · have hp : p = (i, j) := by
      obtain ⟨a, b⟩ := p
      simp only at h1 h2
      have : i = a := by omega
      have : j = b := by omega
      simp_all
    subst hp
    have hnd := hw.nodup
    -- the two decompositions of the order coincide
    have : pre' = pre := by
      rw [ho] at e hnd
      have n1 : (i, j) ∉ pre := by
        intro hm
        have := (List.nodup_append.1 hnd).2.2 _ hm (i, j) (by simp)
        exact this rfl
      have n2 : (i, j) ∉ pre' := by
        intro hm
        rw [e] at hnd
        have := (List.nodup_append.1 hnd).2.2 _ hm (i, j) (by simp)
        exact this rfl
      clear hnd ho
      induction pre generalizing pre' with
      | nil =>
        cases pre' with
        | nil => rfl
        | cons x xs => simp at e; simp [e.1] at n2
      | cons y ys ih =>
        cases pre' with
        | nil => simp at e; simp [e.1] at n1
        | cons x xs =>
          simp only [List.cons_append, List.cons.injEq] at e
          rw [ih xs (fun q hq => h6 q (by simp [hq])) e.2 (fun hm => n1 (by simp [hm]))
            (fun hm => n2 (by simp [hm])), e.1]
    rw [← this]
    exact h6

/-- Where a quarter turn sends an index pair of a matrix with `cols` columns (documented behaviour of
`numpy.rot90`: `rot90(m)[cols-1-j, i] = m[i,j]`); the "not found" pair is left alone. -/
def Spec.rotIdx (cols : Nat) (r : Int × Int × F) : Int × Int × F :=
  if r.1 = -1 then r else ((cols : Int) - 1 - r.2.1, r.1, r.2.2)

/-- **C11** (rotation): on matrices turned by `numpy.rot90`, `nearest` returns the turned index pair and
the same distance, ties included. -/
theorem C11_rot90_equivariant (lons lats : NArr F) (hw : lons.WF) :
    nearest geod lon lat lons.rot90 lats.rot90 =
      (nearest geod lon lat lons lats).map (Spec.rotIdx lons.mat.cols) := by
  unfold nearest
  have r1 : lons.rot90.mat.rows = lons.mat.cols := rfl
  have r2 : lons.rot90.mat.cols = lons.mat.rows := rfl
  have r3 : lats.rot90.mat.rows = lats.mat.cols := rfl
  have r4 : lats.rot90.mat.cols = lats.mat.rows := rfl
  rw [r1, r2, r3, r4]
  by_cases h1 : lons.mat.rows ≠ lats.mat.rows ∨ lons.mat.cols ≠ lats.mat.cols
  · rw [if_pos h1, if_pos h1.symm]; rfl
  · rw [if_neg h1, if_neg (by rintro (h | h) <;> simp_all)]
    by_cases h2 : lons.mat.rows * lons.mat.cols = 0
    · rw [if_pos h2, if_pos (by rw [Nat.mul_comm]; exact h2)]; rfl
    · rw [if_neg h2, if_neg (by rw [Nat.mul_comm]; exact h2)]
      simp only [Except.map]
      congr 1
      have hc : lats.mat.cols = lons.mat.cols := by omega
      simp only [NArr.rot90, List.foldl_map]
      suffices H : ∀ (l : List (Nat × Nat)), (∀ p ∈ l, p ∈ lons.order) → ∀ s : Int × Int × F,
          s.1 = -1 ∨ 0 ≤ s.1 →
          l.foldl (fun x y => nearestStep geod lon lat lons.mat.rot90 lats.mat.rot90 x
            (lons.mat.cols - 1 - y.2, y.1)) (Spec.rotIdx lons.mat.cols s) =
          Spec.rotIdx lons.mat.cols (l.foldl (nearestStep geod lon lat lons.mat lats.mat) s) by
        exact H lons.order (fun _ h => h) (-1, -1, PyFloat.c1e10) (.inl rfl)
      intro l
      induction l with
      | nil => intros; rfl
      | cons p t ih =>
        intro hmem s hs
        simp only [List.foldl_cons]
        have hp := (hw.mem p).1 (hmem p (by simp))
        have step : nearestStep geod lon lat lons.mat.rot90 lats.mat.rot90
            (Spec.rotIdx lons.mat.cols s) (lons.mat.cols - 1 - p.2, p.1) =
            Spec.rotIdx lons.mat.cols (nearestStep geod lon lat lons.mat lats.mat s p) := by
          have e : lons.mat.cols - 1 - (lons.mat.cols - 1 - p.2) = p.2 := by omega
          have d : (Spec.rotIdx lons.mat.cols s).2.2 = s.2.2 := by
            unfold Spec.rotIdx; split <;> rfl
          simp only [nearestStep, Mat.rot90, hc, e, d]
          split
          · simp only [Spec.rotIdx]
            rw [if_neg (by omega)]
            simp only [Prod.mk.injEq, and_true]
            omega
          · rfl
        rw [step]
        apply ih (fun q hq => hmem q (by simp [hq]))
        unfold nearestStep
        simp only
        split
        · right; simp
        · exact hs

/-- **C12** (sentinel): `(-1,-1,1e10)` is returned exactly when no matrix point is closer than 1e10 m. -/
theorem C12_sentinel_iff [FloatOrder F] (lons lats : NArr F) (hs : Spec.SameShape lons lats)
    (hw : lons.WF) :
    (nearest geod lon lat lons lats = .ok (-1, -1, PyFloat.c1e10)) ↔
      ∀ i j, i < lons.mat.rows → j < lons.mat.cols →
        PyFloat.lt (Spec.dist geod lon lat lons.mat lats.mat i j) PyFloat.c1e10 = false := by
  obtain ⟨i, j, d, hn, hh⟩ := nearest_spec geod lon lat lons lats hs
  constructor
  · intro h
    rw [hn] at h
    cases h
    rcases hh with ⟨_, _, _, h⟩ | ⟨_, p, _, _, h1, _⟩
    · exact fun i j hi hj => h (i, j) ((hw.mem _).2 ⟨hi, hj⟩)
    · omega
  · intro hall
    rcases hh with ⟨rfl, rfl, rfl, _⟩ | ⟨pre, p, post, e, _, _, h3, h4, _⟩
    · exact hn
    · have hp : p ∈ lons.order := by rw [e]; simp
      have := (hw.mem p).1 hp
      rw [h3, hall _ _ this.1 this.2] at h4
      cases h4

/-- **C12** (shape check): `ValueError` exactly for matrices of unequal shape or of size zero; there is
no other exception. -/
theorem C12_valueError_iff [FloatOrder F] (lons lats : NArr F) :
    (nearest geod lon lat lons lats = .error .valueError ↔ ¬ Spec.SameShape lons lats) ∧
    ∀ e, nearest geod lon lat lons lats = .error e → e = .valueError := by
  refine ⟨⟨?_, ?_⟩, ?_⟩
  · rintro he hs
    obtain ⟨_, _, _, hn, _⟩ := nearest_spec geod lon lat lons lats hs
    rw [hn] at he; cases he
  · intro hs
    unfold nearest
    split
    · rfl
    · rw [if_pos]
      unfold Spec.SameShape at hs
      rw [Nat.mul_eq_zero]
      omega
  · intro e he
    unfold nearest at he
    split at he
    · cases he; rfl
    · split at he <;> cases he
      rfl

/-! ### Concrete instances -/

/-- 2x2 tile with two points equally close to (1,0). -/
def exLons : NArr Toy := .ofC ⟨2, 2, fun i _ => Toy.ofInt (2 * i)⟩
def exLats : NArr Toy := .ofC ⟨2, 2, fun _ j => Toy.ofInt j⟩

example : Spec.SameShape exLons exLats := by unfold Spec.SameShape; decide
example : exLons.WF := NArr.ofC_wf _
example : nearest Toy.geod 1 0 exLons exLats = .ok (0, 0, 1) := rfl
/-- memory order matters: stored column by column and turned, the other equally close point wins -/
example : nearest Toy.geod 1 0 exLons.rot90.rot90 exLats.rot90.rot90 = .ok (1, 1, 1) := rfl
/-- a NaN query point is never located -/
example : nearest Toy.geod PyFloat.nan 0 exLons exLats = .ok (-1, -1, PyFloat.c1e10) := rfl

end SG
