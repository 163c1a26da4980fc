import Verif.Lemmas.ToMitgrid
/-! # C16–C24, C61: areas, `fill`, `edges`, `tomitgrid` -/

set_option linter.unusedSectionVars false

namespace SG

/-! ## C16 -/
section
variable {F : Type} [Arith F]

/-- Two corner arrays agree on the four corners of cell `(i,j)`. -/
def Spec.SameCorners (c d : Mat (V3 F)) (i j : Nat) : Prop :=
  c.get i j = d.get i j ∧ c.get (i + 1) j = d.get (i + 1) j ∧
  c.get (i + 1) (j + 1) = d.get (i + 1) (j + 1) ∧ c.get i (j + 1) = d.get i (j + 1)

/-- An area function is cellwise: `(m-1) x (n-1)` output whose entry `(i,j)` is determined by the four
corners of cell `(i,j)`, whatever the other points (and the array sizes) are. -/
def Spec.Cellwise (area : Mat (V3 F) → Py (Mat F)) : Prop :=
  (∀ c : Mat (V3 F), 0 < c.rows → 0 < c.cols →
    ∃ u, area c = .ok u ∧ u.rows = c.rows - 1 ∧ u.cols = c.cols - 1) ∧
  (∀ c d : Mat (V3 F), ∀ u v, area c = .ok u → area d = .ok v →
    ∀ i j, i < u.rows → j < u.cols → i < v.rows → j < v.cols →
      Spec.SameCorners c d i j → u.get i j = v.get i j) ∧
  (∀ c : Mat (V3 F), c.rows = 0 ∨ c.cols = 0 → area c = .error .valueError)

theorem cellwise_of (cell : V3 F → V3 F → V3 F → V3 F → F) :
    Spec.Cellwise (fun c : Mat (V3 F) =>
      if c.rows = 0 ∨ c.cols = 0 then .error .valueError else quadLoop cell c) := by
  refine ⟨fun c h1 h2 => ?_, fun c d u v hu hv i j hi hj hi' hj' hs => ?_, fun c h => if_pos h⟩
  · obtain ⟨u, e, r, s, _⟩ := quadLoop_spec cell c
    exact ⟨u, by simp only; rw [if_neg (by omega), e], r, s⟩
  · obtain ⟨u', e, r, s, w⟩ := quadLoop_spec cell c
    obtain ⟨v', e', r', s', w'⟩ := quadLoop_spec cell d
    simp only at hu hv
    split at hu
    · cases hu
    split at hv
    · cases hv
    rw [e] at hu; rw [e'] at hv
    cases hu; cases hv
    rw [w i j (by omega) (by omega), w' i j (by omega) (by omega), hs.1, hs.2.1, hs.2.2.1, hs.2.2.2]

/-- **C16** for `squad_uarea`. -/
theorem C16_squad_cellwise : Spec.Cellwise (squadUarea (F := F)) := cellwise_of squadCell
/-- **C16** for `pquad_uarea`. -/
theorem C16_pquad_cellwise : Spec.Cellwise (pquadUarea (F := F)) := cellwise_of pquadCell

/-- Two 2x2 corner arrays of different sizes that share the corners of cell (0,0). -/
example : let c : Mat (V3 Toy) := ⟨2, 2, fun i j => ⟨.ofInt i, .ofInt j, 1⟩⟩
    let d : Mat (V3 Toy) := ⟨3, 4, fun i j => if i = 2 ∨ 2 ≤ j then ⟨7, 7, 7⟩ else ⟨.ofInt i, .ofInt j, 1⟩⟩
    Spec.SameCorners c d 0 0 := by
  simp [Spec.SameCorners]
end

variable {F : Type} [PyFloat F]

/-! ## C17–C19: `fill` -/

/-- The documented preconditions of `fill`: arrays of equal shape, a window `[ilb..iub] x [jlb..jub]`
inside them whose sides are positive multiples of the strides `2*lon_subscale`, `2*lat_subscale`. -/
structure Spec.FillWindow (xg yg : Mat F) (ilb iub jlb jub ls lt : Nat) : Prop where
  rows : yg.rows = xg.rows
  cols : yg.cols = xg.cols
  hls : 0 < ls
  hlt : 0 < lt
  i : ∃ p, 0 < p ∧ iub = ilb + p * (2 * ls)
  j : ∃ q, 0 < q ∧ jub = jlb + q * (2 * lt)
  hiub : iub < xg.rows
  hjub : jub < xg.cols

/-- Longitude, latitude stored at a compute grid point. -/
def Spec.at (s : Mat F × Mat F) (r c : Nat) : F × F := (s.1.get r c, s.2.get r c)

/-- No longitude is negative. -/
def Spec.NonNeg (xg : Mat F) : Prop :=
  ∀ r c, r < xg.rows → c < xg.cols → PyFloat.lt (xg.get r c) Arith.zero = false

theorem wraps_iff (xg : Mat F) : wraps xg = true ↔ Spec.NonNeg xg := by
  unfold wraps Spec.NonNeg Mat.toList
  rw [Bool.not_eq_true', List.any_eq_false]
  constructor
  · intro h r c hr hc
    have := h (xg.get r c) (List.mem_flatMap.2 ⟨r, List.mem_range.2 hr, List.mem_map.2 ⟨c, List.mem_range.2 hc, rfl⟩⟩)
    simpa using this
  · intro h x hx
    obtain ⟨r, hr, hx⟩ := List.mem_flatMap.1 hx
    obtain ⟨c, hc, rfl⟩ := List.mem_map.1 hx
    rw [h r c (List.mem_range.1 hr) (List.mem_range.1 hc)]; simp

/-- **C17**: `fill` succeeds, keeps the array shapes, and leaves unchanged (a) every point outside the window and
(b) every window point whose offsets are multiples of both strides. -/
theorem C17_fill_preserves (geod : Geod F) (xg yg : Mat F) (ilb iub jlb jub ls lt : Nat)
    (hw : Spec.FillWindow xg yg ilb iub jlb jub ls lt) :
    ∃ s, fill geod xg yg ilb iub jlb jub ls lt = .ok s ∧
      (s.1.rows = xg.rows ∧ s.1.cols = xg.cols ∧ s.2.rows = xg.rows ∧ s.2.cols = xg.cols) ∧
      (∀ r c, ¬ (ilb ≤ r ∧ r ≤ iub ∧ jlb ≤ c ∧ c ≤ jub) → Spec.at s r c = Spec.at (xg, yg) r c) ∧
      (∀ i j, Spec.at s (ilb + i * (2 * ls)) (jlb + j * (2 * lt)) =
        Spec.at (xg, yg) (ilb + i * (2 * ls)) (jlb + j * (2 * lt))) := by
  obtain ⟨hr, hc, hls, hlt, ⟨p, hp, rfl⟩, ⟨q, hq, rfl⟩, hi, hj⟩ := hw
  obtain ⟨s, e, s1, s2, s3, s4, v⟩ := fill_spec geod xg yg ilb jlb p q ls lt hr hc hp hq hls hlt hi hj
  refine ⟨s, e, ⟨s1, s2, s3, s4⟩, fun r c h => ?_, fun i j => ?_⟩
  · show pt s r c = pt (xg, yg) r c
    rw [v]; unfold fill2 fill1
    rw [if_neg (fun hh => h ⟨hh.1, hh.2.1, hh.2.2.1, hh.2.2.2.1⟩),
      if_neg (fun hh => h ⟨hh.1, hh.2.1, hh.2.2.1, hh.2.2.2.1⟩)]
  · show pt s _ _ = pt (xg, yg) _ _
    rw [v]; unfold fill2 fill1
    rw [if_neg (fun hh => hh.2.2.2.2 (by rw [Nat.add_sub_cancel_left, Nat.mul_mod_left])),
      if_neg (fun hh => hh.2.2.2.2.2 (by rw [Nat.add_sub_cancel_left, Nat.mul_mod_left]))]

/-- `lon` as stored by `fill`: shifted by 360 when negative, provided the input has no negative longitude. -/
def Spec.Stored (xg : Mat F) (lon lon' : F) : Prop :=
  (Spec.NonNeg xg → lon' = if PyFloat.lt lon Arith.zero then lon +ₚ PyFloat.c360 else lon) ∧
  (¬ Spec.NonNeg xg → lon' = lon)

/-- `out` is the `k`-th of `n` great-circle subdivision points between `p` and `q`. -/
def Spec.IsSub (geod : Geod F) (xg : Mat F) (n k : Nat) (p q out : F × F) : Prop :=
  Spec.Stored xg (geod.npt p.1 p.2 q.1 q.2 n k).1 out.1 ∧ out.2 = (geod.npt p.1 p.2 q.1 q.2 n k).2

theorem isSub_sub (geod : Geod F) (xg : Mat F) (n k : Nat) (p q : F × F) :
    Spec.IsSub geod xg n k p q (sub geod (wraps xg) n k p q) := by
  refine ⟨⟨fun h => ?_, fun h => ?_⟩, rfl⟩
  · show adjustLon (wraps xg) _ = _
    rw [(wraps_iff xg).2 h]; rfl
  · show adjustLon (wraps xg) _ = _
    have : wraps xg = false := by
      cases hw : wraps xg with
      | false => rfl
      | true => exact absurd ((wraps_iff xg).1 hw) h
    rw [this]; rfl

/-- **C18**: on the given columns the points between two neighbouring given points are the
`2*lon_subscale-1` great-circle points of that edge, in order; then, in every row of the window, the points
between two neighbouring given columns are the `2*lat_subscale-1` great-circle points between the
already filled points of that row. -/
theorem C18_fill_subdivides (geod : Geod F) (xg yg : Mat F) (ilb iub jlb jub ls lt : Nat)
    (hw : Spec.FillWindow xg yg ilb iub jlb jub ls lt) :
    ∃ s, fill geod xg yg ilb iub jlb jub ls lt = .ok s ∧
      (∀ i j k, ilb + (i + 1) * (2 * ls) ≤ iub → jlb + j * (2 * lt) ≤ jub → k < 2 * ls - 1 →
        Spec.IsSub geod xg (2 * ls - 1) k
          (Spec.at (xg, yg) (ilb + i * (2 * ls)) (jlb + j * (2 * lt)))
          (Spec.at (xg, yg) (ilb + (i + 1) * (2 * ls)) (jlb + j * (2 * lt)))
          (Spec.at s (ilb + i * (2 * ls) + (k + 1)) (jlb + j * (2 * lt)))) ∧
      (∀ r j k, ilb ≤ r → r ≤ iub → jlb + (j + 1) * (2 * lt) ≤ jub → k < 2 * lt - 1 →
        Spec.IsSub geod xg (2 * lt - 1) k
          (Spec.at s r (jlb + j * (2 * lt))) (Spec.at s r (jlb + (j + 1) * (2 * lt)))
          (Spec.at s r (jlb + j * (2 * lt) + (k + 1)))) := by
  obtain ⟨hr, hc, hls, hlt, ⟨p, hp, rfl⟩, ⟨q, hq, rfl⟩, hi, hj⟩ := hw
  obtain ⟨s, e, s1, s2, s3, s4, v⟩ := fill_spec geod xg yg ilb jlb p q ls lt hr hc hp hq hls hlt hi hj
  have key : ∀ (D i k : Nat), k < D - 1 → (i * D + (k + 1)) % D = k + 1 ∧ (i * D + (k + 1)) / D = i := by
    intro D i k hk
    have hD : 0 < D := by omega
    constructor
    · rw [Nat.add_comm, Nat.add_mul_mod_self_right, Nat.mod_eq_of_lt (by omega)]
    · rw [Nat.add_comm, Nat.add_mul_div_right _ _ hD, Nat.div_eq_of_lt (by omega), Nat.zero_add]
  refine ⟨s, e, fun i j k hi' hj' hk => ?_, fun r j k h1 h2 h3 hk => ?_⟩
  · have x : ilb + i * (2 * ls) + (k + 1) - ilb = i * (2 * ls) + (k + 1) := by omega
    have y : jlb + j * (2 * lt) - jlb = j * (2 * lt) := by omega
    have m1 := Nat.add_mul i 1 (2 * ls)
    obtain ⟨k1, k2⟩ := key (2 * ls) i k hk
    have : Spec.at s (ilb + i * (2 * ls) + (k + 1)) (jlb + j * (2 * lt)) =
        sub geod (wraps xg) (2 * ls - 1) k (Spec.at (xg, yg) (ilb + i * (2 * ls)) (jlb + j * (2 * lt)))
          (Spec.at (xg, yg) (ilb + (i + 1) * (2 * ls)) (jlb + j * (2 * lt))) := by
      show pt s _ _ = sub geod _ _ _ (pt (xg, yg) _ _) (pt (xg, yg) _ _)
      rw [v]; unfold fill2
      rw [if_neg (fun hh => hh.2.2.2.2 (by rw [y, Nat.mul_mod_left]))]
      unfold fill1
      rw [x, y, k1, k2, if_pos ⟨by omega, by omega, by omega, by omega, Nat.mul_mod_left _ _, by omega⟩]
      rfl
    rw [this]; exact isSub_sub _ _ _ _ _ _
  · have m1 := Nat.add_mul j 1 (2 * lt)
    have x : jlb + j * (2 * lt) + (k + 1) - jlb = j * (2 * lt) + (k + 1) := by omega
    obtain ⟨k1, k2⟩ := key (2 * lt) j k hk
    have nodes : ∀ j', pt s r (jlb + j' * (2 * lt)) =
        fill1 geod (wraps xg) (xg, yg) ilb (ilb + p * (2 * ls)) jlb (jlb + q * (2 * lt)) (2 * ls) (2 * lt)
          r (jlb + j' * (2 * lt)) := by
      intro j'
      rw [v]; unfold fill2
      rw [if_neg (fun hh => hh.2.2.2.2 (by rw [Nat.add_sub_cancel_left, Nat.mul_mod_left]))]
    have : Spec.at s r (jlb + j * (2 * lt) + (k + 1)) =
        sub geod (wraps xg) (2 * lt - 1) k (Spec.at s r (jlb + j * (2 * lt)))
          (Spec.at s r (jlb + (j + 1) * (2 * lt))) := by
      show pt s _ _ = sub geod _ _ _ (pt s _ _) (pt s _ _)
      rw [nodes, nodes, v]; unfold fill2
      rw [x, k1, k2, if_pos ⟨h1, h2, by omega, by omega, by omega⟩]
      rfl
    rw [this]; exact isSub_sub _ _ _ _ _ _

/-- **C19**: if no input longitude is negative (and adding 360 to a negative `npts` longitude makes it non-negative,
i.e. `npts` longitudes are at least -360) then no output longitude is negative. -/
theorem C19_nonneg_convention (geod : Geod F) (xg yg : Mat F) (ilb iub jlb jub ls lt : Nat)
    (hw : Spec.FillWindow xg yg ilb iub jlb jub ls lt) (hnn : Spec.NonNeg xg)
    (h360 : ∀ a b c d n k, PyFloat.lt (geod.npt a b c d n k).1 Arith.zero = true →
      PyFloat.lt ((geod.npt a b c d n k).1 +ₚ PyFloat.c360) (Arith.zero : F) = false) :
    ∃ s, fill geod xg yg ilb iub jlb jub ls lt = .ok s ∧ Spec.NonNeg s.1 := by
  obtain ⟨hr, hc, hls, hlt, ⟨p, hp, rfl⟩, ⟨q, hq, rfl⟩, hi, hj⟩ := hw
  obtain ⟨s, e, s1, s2, s3, s4, v⟩ := fill_spec geod xg yg ilb jlb p q ls lt hr hc hp hq hls hlt hi hj
  refine ⟨s, e, fun r c hr' hc' => ?_⟩
  have hs : ∀ n k a b, PyFloat.lt (sub geod (wraps xg) n k a b).1 Arith.zero = false := by
    intro n k a b
    rw [(wraps_iff xg).2 hnn]
    show PyFloat.lt (if PyFloat.lt _ _ then _ else _) Arith.zero = false
    split
    · rename_i h; exact h360 _ _ _ _ _ _ h
    · rename_i h; simpa using h
  have := congrArg Prod.fst (v r c)
  simp only [pt] at this
  rw [this]
  unfold fill2
  split
  · exact hs _ _ _ _
  · unfold fill1
    split
    · exact hs _ _ _ _
    · exact hnn r c (by omega) (by omega)

/-- **C19**, negative convention: if some input longitude is negative, `npts` longitudes are stored unmodified. -/
theorem C19_negative_convention (geod : Geod F) (xg yg : Mat F) (ilb iub jlb jub ls lt : Nat)
    (hw : Spec.FillWindow xg yg ilb iub jlb jub ls lt)
    (hneg : ∃ r c, r < xg.rows ∧ c < xg.cols ∧ PyFloat.lt (xg.get r c) Arith.zero = true) :
    ∃ s, fill geod xg yg ilb iub jlb jub ls lt = .ok s ∧
      (∀ i j k, ilb + (i + 1) * (2 * ls) ≤ iub → jlb + j * (2 * lt) ≤ jub → k < 2 * ls - 1 →
        Spec.at s (ilb + i * (2 * ls) + (k + 1)) (jlb + j * (2 * lt)) =
          geod.npt (xg.get (ilb + i * (2 * ls)) (jlb + j * (2 * lt)))
            (yg.get (ilb + i * (2 * ls)) (jlb + j * (2 * lt)))
            (xg.get (ilb + (i + 1) * (2 * ls)) (jlb + j * (2 * lt)))
            (yg.get (ilb + (i + 1) * (2 * ls)) (jlb + j * (2 * lt))) (2 * ls - 1) k) ∧
      (∀ r j k, ilb ≤ r → r ≤ iub → jlb + (j + 1) * (2 * lt) ≤ jub → k < 2 * lt - 1 →
        Spec.at s r (jlb + j * (2 * lt) + (k + 1)) =
          geod.npt (s.1.get r (jlb + j * (2 * lt))) (s.2.get r (jlb + j * (2 * lt)))
            (s.1.get r (jlb + (j + 1) * (2 * lt))) (s.2.get r (jlb + (j + 1) * (2 * lt))) (2 * lt - 1) k) := by
  obtain ⟨s, e, a, b⟩ := C18_fill_subdivides geod xg yg ilb iub jlb jub ls lt hw
  have hn : ¬ Spec.NonNeg xg := by
    rintro h
    obtain ⟨r, c, hr, hc, hl⟩ := hneg
    rw [h r c hr hc] at hl; cases hl
  exact ⟨s, e, fun i j k h1 h2 h3 => Prod.ext ((a i j k h1 h2 h3).1.2 hn) (a i j k h1 h2 h3).2,
    fun r j k h1 h2 h3 h4 => Prod.ext ((b r j k h1 h2 h3 h4).1.2 hn) (b r j k h1 h2 h3 h4).2⟩

/-- A 7x5 compute grid (ring included) for `lon_subscale = 2`, `lat_subscale = 1`: corners of a
40 x 10 degree box. -/
def exFillX : Mat Toy := ⟨7, 5, fun i _ => if i = 5 then 50 else 10⟩
def exFillY : Mat Toy := ⟨7, 5, fun _ j => if j = 3 then 20 else 10⟩

example : Spec.FillWindow exFillX exFillY 1 5 1 3 2 1 :=
  ⟨rfl, rfl, by decide, by decide, ⟨1, by decide, rfl⟩, ⟨1, by decide, rfl⟩, by decide, by decide⟩

example : Spec.NonNeg exFillX := (wraps_iff _).1 (by decide)

set_option maxRecDepth 20000 in
/-- On it, `fill` really subdivides: the midpoint of the southern edge is (30,10), the centre (30,15). -/
example : ∃ s, fill Toy.geod exFillX exFillY 1 5 1 3 2 1 = .ok s ∧
    Spec.at s 3 1 = (30, 10) ∧ Spec.at s 3 2 = (30, 15) ∧ Spec.at s 1 2 = (10, 15) := by
  refine ⟨_, rfl, ?_⟩
  decide

/-! ## C20: `edges` -/

/-- **C20**: `edges` returns the distances between neighbouring points of the window, exactly zero for every edge
with an end point outside the window, in arrays of shape `(r-1,c)` and `(r,c-1)`. -/
theorem C20_edges (geod : Geod F) (xg yg : Mat F) (ilb iub jlb jub : Nat)
    (hr : yg.rows = xg.rows) (hc : yg.cols = xg.cols) (hi : iub < xg.rows) (hj : jub < xg.cols) :
    ∃ ex ey, edges geod xg yg ilb iub jlb jub = .ok (ex, ey) ∧
      (ex.rows = xg.rows - 1 ∧ ex.cols = xg.cols) ∧ (ey.rows = xg.rows ∧ ey.cols = xg.cols - 1) ∧
      (∀ i j, ex.get i j =
        if (ilb ≤ i ∧ i ≤ iub) ∧ (ilb ≤ i + 1 ∧ i + 1 ≤ iub) ∧ (jlb ≤ j ∧ j ≤ jub) then
          geod.inv (xg.get i j) (yg.get i j) (xg.get (i + 1) j) (yg.get (i + 1) j)
        else Arith.zero) ∧
      (∀ i j, ey.get i j =
        if (ilb ≤ i ∧ i ≤ iub) ∧ (jlb ≤ j ∧ j ≤ jub) ∧ (jlb ≤ j + 1 ∧ j + 1 ≤ jub) then
          geod.inv (xg.get i j) (yg.get i j) (xg.get i (j + 1)) (yg.get i (j + 1))
        else Arith.zero) := by
  obtain ⟨ex, ey, e, a, b, c, d, vx, vy⟩ := edges_spec geod xg yg ilb iub jlb jub hr hc hi hj
  refine ⟨ex, ey, e, ⟨a, b⟩, ⟨c, d⟩, fun i j => ?_, fun i j => ?_⟩
  · rw [vx]; unfold exVal
    by_cases h : ilb ≤ i ∧ i < iub ∧ jlb ≤ j ∧ j < jub + 1
    · rw [if_pos h, if_pos (by omega)]
    · rw [if_neg h, if_neg (by omega)]
  · rw [vy]; unfold eyVal
    by_cases h : ilb ≤ i ∧ i < iub + 1 ∧ jlb ≤ j ∧ j < jub
    · rw [if_pos h, if_pos (by omega)]
    · rw [if_neg h, if_neg (by omega)]

example : ∃ ex ey, edges Toy.geod exFillX exFillY 1 5 1 3 = .ok (ex, ey) ∧
    ex.get 4 1 = 40 ∧ ex.get 5 1 = 0 ∧ ey.get 1 2 = 10 := ⟨_, _, rfl, by decide⟩

/-! ## C21–C24, C61: `tomitgrid` -/

/-- A compute grid for `m` x `n` cells with its one-point ring. -/
structure Spec.Ringed (xg yg : Mat F) (m n : Nat) : Prop where
  xrows : xg.rows = 2 * m + 3
  xcols : xg.cols = 2 * n + 3
  yrows : yg.rows = 2 * m + 3
  ycols : yg.cols = 2 * n + 3

/-- The call made by `mkgrid`, `regrid` and `addfringe`: `iLB=0, ilb=1, iub=1+2m, iUB=iub+1`, same for j. -/
def tomitgridRing (geod : Geod F) (xg yg : Mat F) (m n : Nat) : Py (Grid F) :=
  tomitgrid geod xg yg 0 1 (1 + 2 * m) (1 + 2 * m + 1) 0 1 (1 + 2 * n) (1 + 2 * n + 1)

/-- The half-cell points inside the ring. -/
def Spec.tile (xg yg : Mat F) (m n : Nat) : Spec.Tile F where
  m := m
  n := n
  P := fun a b => (xg.get (a + 1).toNat (b + 1).toNat, yg.get (a + 1).toNat (b + 1).toNat)

/-- **C21**: `tomitgrid` never fails and returns all 16 arrays with the sizes of the file format. -/
theorem C21_tomitgrid_complete [ZeroLaw F] (geod : Geod F) (xg yg : Mat F) (m n : Nat)
    (h : Spec.Ringed xg yg m n) :
    ∃ g, tomitgridRing geod xg yg m n = .ok g ∧ Spec.Complete g m n := by
  obtain ⟨g, e, v⟩ := tomitgrid_spec geod xg yg m n h.1 h.2 h.3 h.4
  refine ⟨g, e, fun f => ?_⟩
  obtain ⟨M, a, b, c, _⟩ := v f
  exact ⟨M, a, b, c⟩

/-- **C22**: corners are the points at even offsets, centres those at odd/odd offsets from the window corner (1,1). -/
theorem C22_partition [ZeroLaw F] (geod : Geod F) (xg yg : Mat F) (m n : Nat)
    (h : Spec.Ringed xg yg m n) :
    ∃ g XG YG XC YC, tomitgridRing geod xg yg m n = .ok g ∧
      g .XG = .arr XG ∧ g .YG = .arr YG ∧ g .XC = .arr XC ∧ g .YC = .arr YC ∧
      (∀ i j, i ≤ m → j ≤ n → XG.get i j = xg.get (1 + 2 * i) (1 + 2 * j) ∧
        YG.get i j = yg.get (1 + 2 * i) (1 + 2 * j)) ∧
      (∀ i j, i < m → j < n → XC.get i j = xg.get (1 + 2 * i + 1) (1 + 2 * j + 1) ∧
        YC.get i j = yg.get (1 + 2 * i + 1) (1 + 2 * j + 1)) := by
  obtain ⟨g, e, v⟩ := tomitgrid_spec geod xg yg m n h.1 h.2 h.3 h.4
  obtain ⟨XG, a1, b1, c1, d1⟩ := v .XG
  obtain ⟨YG, a2, b2, c2, d2⟩ := v .YG
  obtain ⟨XC, a3, b3, c3, d3⟩ := v .XC
  obtain ⟨YC, a4, b4, c4, d4⟩ := v .YC
  simp only [Spec.nrows, Spec.ncols] at b1 b2 b3 b4 c1 c2 c3 c4
  refine ⟨g, XG, YG, XC, YC, e, a1, a2, a3, a4, fun i j hi hj => ?_, fun i j hi hj => ?_⟩
  · rw [d1 i j (by omega) (by omega), d2 i j (by omega) (by omega)]
    have p : ((2 * i : Int) + 1).toNat = 1 + 2 * i := by omega
    have q : ((2 * j : Int) + 1).toNat = 1 + 2 * j := by omega
    constructor
    · show xg.get ((2 * i : Int) + 1).toNat ((2 * j : Int) + 1).toNat = _; rw [p, q]
    · show yg.get ((2 * i : Int) + 1).toNat ((2 * j : Int) + 1).toNat = _; rw [p, q]
  · rw [d3 i j (by omega) (by omega), d4 i j (by omega) (by omega)]
    have p : ((2 * i + 1 : Int) + 1).toNat = 1 + 2 * i + 1 := by omega
    have q : ((2 * j + 1 : Int) + 1).toNat = 1 + 2 * j + 1 := by omega
    constructor
    · show xg.get ((2 * i + 1 : Int) + 1).toNat ((2 * j + 1 : Int) + 1).toNat = _; rw [p, q]
    · show yg.get ((2 * i + 1 : Int) + 1).toNat ((2 * j + 1 : Int) + 1).toNat = _; rw [p, q]

/-- Area of the quadrilateral with the given lon/lat corners: `radius²` times the planar or the spherical
unit-sphere area (C14, C15) of the corner positions (C13). -/
def Spec.quad (geod : Geod F) (planar : Bool) (p q r s : F × F) : F :=
  (if planar then pquadCell else squadCell)
    (lonlat2cart1 p.1 p.2) (lonlat2cart1 q.1 q.2) (lonlat2cart1 r.1 r.2) (lonlat2cart1 s.1 s.2)
    *ₚ (geod.a *ₚ geod.a)

/-- **C23**: every entry of every array is the staggered-grid quantity `Tile.entry` of the spec: coordinates of its
half-cell point, sum of the two half-edges, or sum of the four quarter-cell areas around that
point (zero if a summand is zero), with one and the same area formula for all cells. -/
theorem C23_tomitgrid_entries [ZeroLaw F] (geod : Geod F) (xg yg : Mat F) (m n : Nat)
    (h : Spec.Ringed xg yg m n) :
    ∃ (planar : Bool) (g : Grid F), tomitgridRing geod xg yg m n = .ok g ∧
      ∀ f, ∃ M, g f = .arr M ∧ ∀ i j, i < Spec.nrows f m → j < Spec.ncols f n →
        M.get i j = (Spec.tile xg yg m n).entry geod.inv (Spec.quad geod planar) f i j := by
  obtain ⟨g, e, v⟩ := tomitgrid_spec geod xg yg m n h.1 h.2 h.3 h.4
  refine ⟨(tileOf xg yg m n).usePlanar geod.inv, g, e, fun f => ?_⟩
  obtain ⟨M, a, b, c, d⟩ := v f
  exact ⟨M, a, fun i j hi hj => d i j (by omega) (by omega)⟩

/-- **C61**: the quarter-cell area used for all cells of a grid is `radius²` times the planar quadrilateral
area if the mean nonzero half-edge lengths in x and in y are both below the threshold, and `radius²` times the
spherical-excess area otherwise; both applied to the unit-sphere positions of the corners. -/
theorem C61_area_formula [ZeroLaw F] (geod : Geod F) (xg yg : Mat F) (m n : Nat)
    (h : Spec.Ringed xg yg m n) :
    ∃ g, tomitgridRing geod xg yg m n = .ok g ∧
      ∀ f, Spec.kind f = .area → ∃ M, g f = .arr M ∧ ∀ i j, i < Spec.nrows f m → j < Spec.ncols f n →
        M.get i j = (Spec.tile xg yg m n).entry geod.inv
          (Spec.quad geod ((Spec.tile xg yg m n).usePlanar geod.inv)) f i j := by
  obtain ⟨g, e, v⟩ := tomitgrid_spec geod xg yg m n h.1 h.2 h.3 h.4
  refine ⟨g, e, fun f _ => ?_⟩
  obtain ⟨M, a, b, c, d⟩ := v f
  exact ⟨M, a, fun i j hi hj => d i j (by omega) (by omega)⟩

/-- The entries whose cell sticks out of an `m` x `n` tile: `DXC, DXV, RAW, RAZ` in the first and last
row, `DYC, DYU, RAS, RAZ` in the first and last column. -/
def Spec.Undefined (f : Field) (m n i j : Nat) : Prop :=
  (f ∈ [.DXC, .DXV, .RAW, .RAZ] ∧ (i = 0 ∨ i = m)) ∨
  (f ∈ [.DYC, .DYU, .RAS, .RAZ] ∧ (j = 0 ∨ j = n))

theorem sumOrZero_of_zero [ZeroLaw F] (l : List F) (h : (Arith.zero : F) ∈ l) :
    Spec.sumOrZero l = Arith.zero := by
  unfold Spec.sumOrZero
  rw [if_pos (List.any_eq_true.2 ⟨_, h, ZeroLaw.isZero_zero⟩)]

theorem entry_undefined [ZeroLaw F] (T : Spec.Tile F) (inv quad) (f : Field) (i j : Nat)
    (hu : Spec.Undefined f T.m T.n i j) : T.entry inv quad f i j = Arith.zero := by
  rcases hu with ⟨hf, h⟩ | ⟨hf, h⟩ <;> simp only [List.mem_cons, List.not_mem_nil, or_false] at hf <;>
    rcases hf with rfl | rfl | rfl | rfl <;>
    simp only [Spec.Tile.entry, Spec.kind, Spec.halfI, Spec.halfJ, Spec.nrows, Spec.ncols,
      if_true, Nat.zero_add, Nat.one_ne_zero, if_false] <;>
    apply sumOrZero_of_zero <;>
    simp only [Spec.Tile.subX, Spec.Tile.subY, Spec.Tile.subA, List.mem_cons, List.not_mem_nil, or_false] <;>
    rcases h with h | h
  all_goals first
    | (left; rw [if_neg (by omega)]; done)
    | (right; rw [if_neg (by omega)]; done)
    | (right; left; rw [if_neg (by omega)]; done)
    | (right; right; left; rw [if_neg (by omega)]; done)

/-- **C24**: entries that would need data beyond the tile are exactly zero. -/
theorem C24_boundary_zero [ZeroLaw F] (geod : Geod F) (xg yg : Mat F) (m n : Nat)
    (h : Spec.Ringed xg yg m n) :
    ∃ g, tomitgridRing geod xg yg m n = .ok g ∧
      ∀ f, ∃ M, g f = .arr M ∧ ∀ i j, i < Spec.nrows f m → j < Spec.ncols f n →
        Spec.Undefined f m n i j → M.get i j = Arith.zero := by
  obtain ⟨g, e, v⟩ := tomitgrid_spec geod xg yg m n h.1 h.2 h.3 h.4
  refine ⟨g, e, fun f => ?_⟩
  obtain ⟨M, a, b, c, d⟩ := v f
  refine ⟨M, a, fun i j hi hj hu => ?_⟩
  rw [d i j (by omega) (by omega)]
  exact entry_undefined (tileOf xg yg m n) _ _ f i j hu

/-- A 2 x 1 tile (7 x 5 compute grid) with unit spacing; the ring holds junk. -/
def exRingX : Mat Toy := ⟨7, 5, fun i j => if i = 0 ∨ i = 6 ∨ j = 0 ∨ j = 4 then 99 else .ofInt i⟩
def exRingY : Mat Toy := ⟨7, 5, fun i j => if i = 0 ∨ i = 6 ∨ j = 0 ∨ j = 4 then 99 else .ofInt j⟩

example : Spec.Ringed exRingX exRingY 2 1 := ⟨rfl, rfl, rfl, rfl⟩
example : Spec.Undefined .DXC 2 1 2 0 := by unfold Spec.Undefined; decide

set_option maxRecDepth 20000 in
/-- On it DXG(1,0) = 2, DXC(1,0) = 2 (interior) and DXC(0,0) = 0 (undefined). -/
example : (tomitgridRing Toy.geod exRingX exRingY 2 1).toOption.map (fun g =>
    ((g.arr .DXG).toOption.map fun M => M.get 1 0, (g.arr .DXC).toOption.map fun M => (M.get 1 0, M.get 0 0)))
    = some (some 2, some (2, 0)) := by
  decide

end SG
