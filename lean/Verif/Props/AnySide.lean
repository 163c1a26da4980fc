import Verif.Props.Pipeline
/-! # C78 on all four sides -/

set_option linter.unusedSectionVars false
namespace SG
variable {F : Type} [PyFloat F]

/-- The corner of the neighbour that lies on corner `c` of edge `e`. -/
def Spec.facing : Edge → Spec.Corner → Spec.Corner
  | .E, c | .W, c => (!c.1, c.2)
  | .N, c | .S, c => (c.1, !c.2)

/-- Two boxes with corner points `a`, `b` share side `ae` of the first and `be` of the second: the tolerance is a number, the end points of the side
coincide and are within the tolerance of themselves, and the other corners are farther than that from all corners of the other box. -/
structure Spec.ShareSide (geod : Geod F) (a b : Spec.Corner → F × F) (ae be : Edge) : Prop where
  opposite : Spec.Opposite (ae, be)
  finite : PyFloat.le PyFloat.inf (Spec.boxTolerance geod a b) = false
  same : ∀ c, Spec.onEdge ae c = true → a c = b (Spec.facing ae c)
  common : ∀ c, Spec.onEdge ae c = true → PyFloat.le (Spec.cdist geod (a c) (a c)) (Spec.boxTolerance geod a b) = true
  farA : ∀ c, Spec.onEdge ae c = false → ∀ c', PyFloat.le (Spec.cdist geod (a c) (b c')) (Spec.boxTolerance geod a b) = false
  farB : ∀ c, Spec.onEdge be c = false → ∀ c', PyFloat.le (Spec.cdist geod (a c') (b c)) (Spec.boxTolerance geod a b) = false

theorem first_of_far (near : Spec.Corner → Prop) (e : Edge) (h1 : ∀ c, Spec.onEdge e c = true → near c)
    (h2 : ∀ c, Spec.onEdge e c = false → ¬ near c) : Spec.FirstEdge near e := by
  refine ⟨h1, fun e' hr hn => ?_⟩
  have : ∃ c, Spec.onEdge e' c = true ∧ Spec.onEdge e c = false := by
    cases e <;> cases e' <;> first
      | exact absurd hr (by decide)
      | exact ⟨(false, false), rfl, rfl⟩
      | exact ⟨(true, false), rfl, rfl⟩
      | exact ⟨(false, true), rfl, rfl⟩
      | exact ⟨(true, true), rfl, rfl⟩
  obtain ⟨c, c1, c2⟩ := this
  exact h2 c c2 (hn c c1)

/-- Boxes that share a side: `addfringe` finds the side and `stitch` joins the tiles along it. -/
theorem any_side_core [F64 F] [FloatTotal F] [LawfulF64 F] [ZeroLaw F] (geod : Geod F) (a1 a2 a3 a4 b1 b2 b3 b4 : F) (ma na mb nb : Nat)
    (hma : 1 ≤ ma) (hna : 1 ≤ na) (hmb : 1 ≤ mb) (hnb : 1 ≤ nb) (ae be : Edge)
    (h : Spec.ShareSide geod (Spec.boxCorner a1 a2 a3 a4) (Spec.boxCorner b1 b2 b3 b4) ae be)
    (hcells : Spec.edgeCells ma na ae = Spec.edgeCells mb nb be) (olda oldb : List Byte) (strict : Bool) :
    ∃ (b a' c : Grid F), readMitgrid (mkgridMain geod b1 b2 b3 b4 mb nb oldb).1 mb nb strict = .ok b ∧
      addfringe geod strict (mkgridMain geod a1 a2 a3 a4 ma na olda).1 ma na (mkgridMain geod b1 b2 b3 b4 mb nb oldb).1 mb nb = .ok (ae, be, a') ∧
      stitch geod strict (mkgridMain geod a1 a2 a3 a4 ma na olda).1 ma na (mkgridMain geod b1 b2 b3 b4 mb nb oldb).1 mb nb =
        .ok (c, Spec.joinedSize ma na mb nb ae) ∧ Spec.Joined ma na mb nb ae a' b c := by
  obtain ⟨ga, a, XA, YA, xa, ya, ka, ra, hxa0, hya0, hxa, hya, ssxa, ssya, A1, A2, A3, A4, ca⟩ :=
    mkgrid_file geod a1 a2 a3 a4 ma na hma hna olda strict
  obtain ⟨gb, b, XB, YB, xb, yb, kb, rb, hxb0, hyb0, hxb, hyb, ssxb, ssyb, B1, B2, B3, B4, cb⟩ :=
    mkgrid_file geod b1 b2 b3 b4 mb nb hmb hnb oldb strict
  have tol : Spec.tolerance geod xa ya xb yb = Spec.boxTolerance geod (Spec.boxCorner a1 a2 a3 a4) (Spec.boxCorner b1 b2 b3 b4) := by
    unfold Spec.tolerance Spec.boxTolerance
    simp only [ca, cb]
  have no : ∀ {x : Bool}, x = false → ¬ x = true := fun h h' => by rw [h] at h'; cases h'
  have f1 : Spec.FirstEdge (Spec.NearA geod xa ya xb yb) ae := by
    refine first_of_far _ _ (fun c hc => ⟨Spec.facing ae c, ?_⟩) fun c hc ⟨c', h'⟩ => ?_
    · rw [tol, ca, cb, ← h.same c hc]; exact h.common c hc
    · rw [tol, ca, cb] at h'; exact no (h.farA c hc c') h'
  have f2 : Spec.FirstEdge (Spec.NearB geod xa ya xb yb) be := by
    refine first_of_far _ _ (fun c hc => ⟨Spec.facing be c, ?_⟩) fun c hc ⟨c', h'⟩ => ?_
    · have h1 : Spec.onEdge ae (Spec.facing be c) = true := by
        have := h.opposite
        obtain ⟨c1, c2⟩ := c
        cases ae <;> cases be <;> simp_all [Spec.Opposite, Spec.onEdge, Spec.facing]
      have h2 : Spec.facing ae (Spec.facing be c) = c := by
        have := h.opposite
        obtain ⟨c1, c2⟩ := c
        cases ae <;> cases be <;> simp_all [Spec.Opposite, Spec.facing]
      have e := h.same _ h1
      rw [h2] at e
      have k := h.common _ h1
      rw [tol, ca, cb, ← e]
      exact k
    · rw [tol, ca, cb] at h'; exact no (h.farB c hc c') h'
  obtain ⟨M, hM, hMa, hMb⟩ := C41_accepts geod xa ya xb yb ae be ⟨by omega, by omega, by omega, by omega⟩
    ⟨by omega, by omega, by omega, by omega⟩ (by rw [tol]; exact h.finite) f1 f2 h.opposite (by
      have := along_cells xa ma na A1 A2 ae
      have := along_cells xb mb nb B1 B2 be
      have ho := h.opposite
      refine ⟨?_, ?_, ?_⟩
      · cases ae <;> simp only [Spec.along] <;> omega
      · omega
      · cases be <;> simp only [Spec.across] <;> omega)
  obtain ⟨a', c, hadd, hst, hj⟩ := stitch_accepts geod strict _ _ ma na mb nb hma hna a b xa ya xb yb M ra rb hxa hya hxb hyb hM
    (by rw [hMa, hMb]; exact hcells)
  rw [hMa] at hst hj
  rw [hMa, hMb] at hadd
  exact ⟨b, a', c, rb, hadd, hst, hj⟩

/-- **C78**, any side: two tiles made by `sgmkgrid` from boxes that share a side, with equally many cells along it, are stitched by `sgstitch` into a file
that passes a strict read with the added counts; its `XG` and `YG` are those of the first tile and, beyond the common side, those of the second. -/
theorem C78_any_side [F64 F] [FloatTotal F] [LawfulF64 F] [ZeroLaw F] (geod : Geod F) (a1 a2 a3 a4 b1 b2 b3 b4 : F) (ma na mb nb : Nat)
    (hma : 1 ≤ ma) (hna : 1 ≤ na) (hmb : 1 ≤ mb) (hnb : 1 ≤ nb) (ae be : Edge)
    (h : Spec.ShareSide geod (Spec.boxCorner a1 a2 a3 a4) (Spec.boxCorner b1 b2 b3 b4) ae be)
    (hcells : Spec.edgeCells ma na ae = Spec.edgeCells mb nb be) (olda oldb old : List Byte) (strict : Bool) :
    ∃ bytes c a b, stitchMain (F := F) geod strict (mkgridMain geod a1 a2 a3 a4 ma na olda).1 ma na
        (mkgridMain geod b1 b2 b3 b4 mb nb oldb).1 mb nb old = (bytes, .ok ()) ∧
      readMitgrid bytes (Spec.joinedSize ma na mb nb ae).1 (Spec.joinedSize ma na mb nb ae).2 true = .ok c ∧
      mkgrid geod a1 a2 a3 a4 ma na = .ok (a, (ma : Int), (na : Int)) ∧
      mkgrid geod b1 b2 b3 b4 mb nb = .ok (b, (mb : Int), (nb : Int)) ∧
      ∀ f, f = .XG ∨ f = .YG → ∃ A B C, a f = .arr A ∧ b f = .arr B ∧ c f = .arr C ∧
        ∀ i j, i ≤ (Spec.joinedSize ma na mb nb ae).1 → j ≤ (Spec.joinedSize ma na mb nb ae).2 →
          C.get i j = Spec.joinedAt ma na mb nb ae f A B i j := by
  obtain ⟨ga, a, XA, YA, xa, ya, ka, ra, hxa0, hya0, hxa, hya, ssxa, ssya, A1, A2, A3, A4, -⟩ :=
    mkgrid_file geod a1 a2 a3 a4 ma na hma hna olda strict
  obtain ⟨gb, b, XB, YB, xb, yb, kb, rb, hxb0, hyb0, hxb, hyb, ssxb, ssyb, B1, B2, B3, B4, -⟩ :=
    mkgrid_file geod b1 b2 b3 b4 mb nb hmb hnb oldb strict
  obtain ⟨b', a', c, rb', hadd, hst, hj⟩ := any_side_core geod a1 a2 a3 a4 b1 b2 b3 b4 ma na mb nb hma hna hmb hnb ae be h hcells olda oldb strict
  rw [rb] at rb'; cases rb'
  obtain ⟨bytes, hmain, -, hread⟩ := (C67_sgstitch geod strict _ _ ma na mb nb old).2 c _ _ hst
  obtain ⟨c', hrc, hsame⟩ := hread true
  refine ⟨bytes, c', ga, gb, hmain, hrc, ka, kb, ?_⟩
  obtain ⟨-, a0, hra0, hkeep⟩ := C43_addfringe_keeps geod strict _ _ ma na mb nb _ _ a' hadd
  rw [ra] at hra0; cases hra0
  have main : ∀ (f : Field) (A A' B B' : Mat F), (f = .XG ∨ f = .YG) → (∀ k, Spec.nrows f k = k + 1) → (∀ k, Spec.ncols f k = k + 1) →
      ga f = .arr A → a f = .arr A' → A.Same A' → gb f = .arr B → b f = .arr B' → B.Same B' →
      A'.rows = ma + 1 → A'.cols = na + 1 → B'.rows = mb + 1 → B'.cols = nb + 1 →
      ∃ A B C, ga f = .arr A ∧ gb f = .arr B ∧ c' f = .arr C ∧
        ∀ i j, i ≤ (Spec.joinedSize ma na mb nb ae).1 → j ≤ (Spec.joinedSize ma na mb nb ae).2 →
          C.get i j = Spec.joinedAt ma na mb nb ae f A B i j := by
    intro f A A' B B' hf hnr hnc hA hA' sA hB hB' sB r1 c1 r2 c2
    obtain ⟨A0, R, e1, e2, hv⟩ := hkeep f
    rw [hA'] at e1; cases e1
    obtain ⟨A1, B1, C1, f1, f2, f3, cr, cc, hval⟩ := hj f
    rw [e2] at f1; cases f1
    rw [hB'] at f2; cases f2
    have hs := hsame f
    rw [f3] at hs
    cases hc' : c' f with
    | none_ => rw [hc'] at hs; exact hs.elim
    | absent => rw [hc'] at hs; exact hs.elim
    | arr C =>
      rw [hc'] at hs
      obtain ⟨s1, s2, s3⟩ := hs
      rw [hnr] at cr
      rw [hnc] at cc
      have vA : ∀ i j, i ≤ ma → j ≤ na → R.get i j = A.get i j := fun i j hi hj' => by
        rw [hv i j (by rw [hnr]; omega) (by rw [hnc]; omega) (.inr hf), sA.2.2 i j (by have := sA.1; omega) (by have := sA.2.1; omega)]
      have vB : ∀ i j, i ≤ mb → j ≤ nb → B'.get i j = B.get i j := fun i j hi hj' => by
        rw [sB.2.2 i j (by have := sB.1; omega) (by have := sB.2.1; omega)]
      refine ⟨A, B, C, hA, hB, rfl, fun i j hi hj' => ?_⟩
      rw [← s3 i j (by omega) (by omega), hval i j (by omega) (by omega)]
      have ho := h.opposite
      unfold Spec.joinedAt
      cases ae <;> cases be <;> simp only [Spec.Opposite] at ho <;> simp only [Spec.joinedSize, Spec.edgeCells] at hi hj' hcells <;> dsimp only <;>
        split <;> first
          | (rw [vA _ _ (by simp only [hnr, hnc] at *; omega) (by simp only [hnr, hnc] at *; omega)])
          | (rw [vB _ _ (by simp only [hnr, hnc] at *; omega) (by simp only [hnr, hnc] at *; omega)])
  rintro f (rfl | rfl)
  · exact main .XG XA xa XB xb (.inl rfl) (fun _ => rfl) (fun _ => rfl) hxa0 hxa ssxa hxb0 hxb ssxb A1 A2 B1 B2
  · exact main .YG YA ya YB yb (.inr rfl) (fun _ => rfl) (fun _ => rfl) hya0 hya ssya hyb0 hyb ssyb A3 A4 B3 B4

/-- Boxes 10..50 by 10..20 and 10..50 by 20..30, the second north of the first; the same the other way round; the second west of the first. -/
theorem exNorth : Spec.ShareSide Toy.geod (Spec.boxCorner 10 20 50 10) (Spec.boxCorner 10 30 50 20) .N .S := by
  refine ⟨trivial, by decide +kernel, ?_, ?_, ?_, ?_⟩ <;> rintro ⟨a, b⟩ <;> cases a <;> cases b <;> decide +kernel
theorem exSouth : Spec.ShareSide Toy.geod (Spec.boxCorner 10 30 50 20) (Spec.boxCorner 10 20 50 10) .S .N := by
  refine ⟨trivial, by decide +kernel, ?_, ?_, ?_, ?_⟩ <;> rintro ⟨a, b⟩ <;> cases a <;> cases b <;> decide +kernel
theorem exWest : Spec.ShareSide Toy.geod (Spec.boxCorner 50 20 80 10) (Spec.boxCorner 10 20 50 10) .W .E := by
  refine ⟨trivial, by decide +kernel, ?_, ?_, ?_, ?_⟩ <;> rintro ⟨a, b⟩ <;> cases a <;> cases b <;> decide +kernel

example : (stitchMain (F := Toy) Toy.geod true (mkgridMain Toy.geod 10 20 50 10 (2 : Nat) (1 : Nat) []).1 2 1
    (mkgridMain Toy.geod 10 30 50 20 (2 : Nat) (3 : Nat) []).1 2 3 []).2 = .ok () := by
  obtain ⟨bytes, c, a, b, h, -⟩ := C78_any_side Toy.geod 10 20 50 10 10 30 50 20 2 1 2 3 (by decide) (by decide) (by decide) (by decide) .N .S exNorth
    rfl [] [] [] true
  rw [h]

end SG
