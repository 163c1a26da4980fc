import Verif.Props.Again
/-! # C131, C132: the order in which tiles are given to `stitch` -/

set_option linter.unusedSectionVars false
namespace SG
variable {F : Type} [PyFloat F]

/-- Entry `(i,j)` of the stitched array `f` lies on the common side of the two tiles, `e` being that side of tile A. -/
def Spec.OnSeam (nia nja nib njb : Nat) (e : Edge) (f : Field) (i j : Nat) : Prop :=
  match e with
  | .E => Spec.nrows f 0 = 1 ∧ i = nia
  | .W => Spec.nrows f 0 = 1 ∧ i = nib
  | .N => Spec.ncols f 0 = 1 ∧ j = nja
  | .S => Spec.ncols f 0 = 1 ∧ j = njb

/-- Off the common side the tiles put together do not depend on the order. -/
theorem joinedAt_swap (nia nja nib njb : Nat) (ea eb : Edge) (ho : Spec.Opposite (ea, eb)) (f : Field) (A B : Mat F) (i j : Nat)
    (hs : ¬ Spec.OnSeam nia nja nib njb ea f i j) :
    Spec.joinedAt nib njb nia nja eb f B A i j = Spec.joinedAt nia nja nib njb ea f A B i j := by
  have hr : ∀ k, Spec.nrows f k = k + Spec.nrows f 0 := fun k => by cases f <;> simp [Spec.nrows]
  have hc : ∀ k, Spec.ncols f k = k + Spec.ncols f 0 := fun k => by cases f <;> simp [Spec.ncols]
  have r1 : Spec.nrows f 0 ≤ 1 := by cases f <;> simp [Spec.nrows]
  have c1 : Spec.ncols f 0 ≤ 1 := by cases f <;> simp [Spec.ncols]
  cases ea <;> cases eb <;> simp only [Spec.Opposite] at ho <;> simp only [Spec.OnSeam, Spec.joinedAt] at hs ⊢ <;>
    simp only [hr nia, hr nib, hc nja, hc njb] <;> split <;> split <;> first | rfl | (exfalso; omega)

/-- **C131**: which of two tiles is given first makes a difference on their common side only.  If both orders succeed, matching the same sides, the
sizes are equal.  Off the common side every entry that is nonzero in the tile it comes from, and every corner point, is the same in both results, namely
the entry of that tile. -/
theorem C131_stitch_order [F64 F] [ZeroLaw F] (geod : Geod F) (strict : Bool) (fa fb : List Byte) (nia nja nib njb nic njc nid njd : Nat)
    (c d x y : Grid F) (ea eb : Edge)
    (hc : stitch geod strict fa nia nja fb nib njb = .ok (c, nic, njc)) (hd : stitch geod strict fb nib njb fa nia nja = .ok (d, nid, njd))
    (ha : addfringe geod strict fa nia nja fb nib njb = .ok (ea, eb, x)) (hb : addfringe geod strict fb nib njb fa nia nja = .ok (eb, ea, y)) :
    nid = nic ∧ njd = njc ∧ ∃ a b : Grid F, readMitgrid fa nia nja strict = .ok a ∧ readMitgrid fb nib njb strict = .ok b ∧
      ∀ f, ∃ A B C D, a f = .arr A ∧ b f = .arr B ∧ c f = .arr C ∧ d f = .arr D ∧
        ∀ i j, i < Spec.nrows f nic → j < Spec.ncols f njc → ¬ Spec.OnSeam nia nja nib njb ea f i j →
          (PyFloat.isZero (Spec.joinedAt nia nja nib njb ea f A B i j) = false ∨ f = .XG ∨ f = .YG) →
          C.get i j = Spec.joinedAt nia nja nib njb ea f A B i j ∧ D.get i j = Spec.joinedAt nia nja nib njb ea f A B i j := by
  obtain ⟨ea1, eb1, x1, b, k1, rb, ho, hcell, hsz, hj⟩ := C46_stitch_content geod strict fa fb nia nja nib njb nic njc c hc
  rw [ha] at k1; cases k1
  obtain ⟨ea1, eb1, y1, a, k1, ra, ho', hcell', hsz', hj'⟩ := C46_stitch_content geod strict fb fa nib njb nia nja nid njd d hd
  rw [hb] at k1; cases k1
  obtain ⟨-, a1, ra1, keepA⟩ := C43_addfringe_keeps geod strict fa fb nia nja nib njb ea eb x ha
  rw [ra] at ra1; cases ra1
  obtain ⟨-, b1, rb1, keepB⟩ := C43_addfringe_keeps geod strict fb fa nib njb nia nja eb ea y hb
  rw [rb] at rb1; cases rb1
  have s1 := congrArg Prod.fst hsz
  have s2 := congrArg Prod.snd hsz
  have t1 := congrArg Prod.fst hsz'
  have t2 := congrArg Prod.snd hsz'
  dsimp only at s1 s2 t1 t2
  have sizes : nid = nic ∧ njd = njc := by
    cases ea <;> cases eb <;> simp only [Spec.Opposite] at ho <;> simp only [Spec.joinedSize, Spec.edgeCells] at s1 s2 t1 t2 hcell <;> omega
  obtain ⟨rfl, rfl⟩ := sizes
  refine ⟨rfl, rfl, a, b, ra, rb, fun f => ?_⟩
  obtain ⟨A, X, a1, a2, a3⟩ := keepA f
  obtain ⟨B, Y, b1, b2, b3⟩ := keepB f
  obtain ⟨X', B', C, j1, j2, j3, j4, j5, j6⟩ := hj f
  rw [a2] at j1; cases j1
  rw [b1] at j2; cases j2
  obtain ⟨Y', A', D, l1, l2, l3, l4, l5, l6⟩ := hj' f
  rw [b2] at l1; cases l1
  rw [a1] at l2; cases l2
  refine ⟨A, B, C, D, a1, b1, j3, l3, fun i j hi hj'' hs hv => ⟨?_, ?_⟩⟩
  · rw [j6 i j (by rw [j4, ← s1]; exact hi) (by rw [j5, ← s2]; exact hj'')]
    have hr : ∀ k, Spec.nrows f k = k + Spec.nrows f 0 := fun k => by cases f <;> simp [Spec.nrows]
    have hcc : ∀ k, Spec.ncols f k = k + Spec.ncols f 0 := fun k => by cases f <;> simp [Spec.ncols]
    rw [hr] at hi
    rw [hcc] at hj''
    cases ea <;> cases eb <;> simp only [Spec.Opposite] at ho <;>
      simp only [Spec.joinedSize, Spec.edgeCells] at s1 s2 hcell <;> simp only [Spec.joinedAt] at hv ⊢ <;> split at hv <;> rename_i hif <;>
      first
        | (rw [if_pos hif, if_pos hif]; refine a3 _ _ ?_ ?_ hv <;> (first | rw [hr] | rw [hcc]) <;> (try rw [hr] at hif) <;> (try rw [hcc] at hif) <;> omega)
        | (rw [if_neg hif, if_neg hif])
  · rw [l6 i j (by rw [l4, ← t1]; exact hi) (by rw [l5, ← t2]; exact hj'')]
    rw [← joinedAt_swap nia nja nib njb ea eb ho f A B i j hs] at hv ⊢
    have hr : ∀ k, Spec.nrows f k = k + Spec.nrows f 0 := fun k => by cases f <;> simp [Spec.nrows]
    have hcc : ∀ k, Spec.ncols f k = k + Spec.ncols f 0 := fun k => by cases f <;> simp [Spec.ncols]
    rw [hr] at hi
    rw [hcc] at hj''
    cases ea <;> cases eb <;> simp only [Spec.Opposite] at ho <;>
      simp only [Spec.joinedSize, Spec.edgeCells] at t1 t2 hcell <;> simp only [Spec.joinedAt] at hv ⊢ <;> split at hv <;> rename_i hif <;>
      first
        | (rw [if_pos hif, if_pos hif]; refine b3 _ _ ?_ ?_ hv <;> (first | rw [hr] | rw [hcc]) <;> (try rw [hr] at hif) <;> (try rw [hcc] at hif) <;> omega)
        | (rw [if_neg hif, if_neg hif])

/-! ## Three tiles -/

/-- Array `f` of two tiles put together. -/
def Spec.joinedMat (nia nja nib njb : Nat) (e : Edge) (f : Field) (A B : Mat F) : Mat F :=
  ⟨Spec.nrows f (Spec.joinedSize nia nja nib njb e).1, Spec.ncols f (Spec.joinedSize nia nja nib njb e).2, Spec.joinedAt nia nja nib njb e f A B⟩

/-- Putting three tiles in a row together in one order or the other. -/
theorem joinedAt_assoc (n1 m1 n2 m2 n3 m3 : Nat) (e : Edge) (f : Field) (A B C : Mat F) (i j : Nat) :
    Spec.joinedAt (Spec.joinedSize n1 m1 n2 m2 e).1 (Spec.joinedSize n1 m1 n2 m2 e).2 n3 m3 e f (Spec.joinedMat n1 m1 n2 m2 e f A B) C i j =
    Spec.joinedAt n1 m1 (Spec.joinedSize n2 m2 n3 m3 e).1 (Spec.joinedSize n2 m2 n3 m3 e).2 e f A (Spec.joinedMat n2 m2 n3 m3 e f B C) i j := by
  have hr : ∀ k, Spec.nrows f k = k + Spec.nrows f 0 := fun k => by cases f <;> simp [Spec.nrows]
  have hc : ∀ k, Spec.ncols f k = k + Spec.ncols f 0 := fun k => by cases f <;> simp [Spec.ncols]
  cases e <;> simp only [Spec.joinedSize, Spec.joinedAt, Spec.joinedMat] <;>
    try simp only [hr n1, hr n2, hr (n1 + n2), hc m1, hc m2, hc (m1 + m2)]
  · repeat' split
    all_goals first | rfl | (exfalso; omega) | (rw [Nat.sub_sub])
  · repeat' split
    all_goals first | rfl | (exfalso; omega) | (rw [Nat.sub_sub]; congr 1; omega)
  · repeat' split
    all_goals first | rfl | (exfalso; omega) | (rw [Nat.sub_sub])
  · repeat' split
    all_goals first | rfl | (exfalso; omega) | (rw [Nat.sub_sub, Nat.add_comm])

/-- What a successful `stitch` keeps, tile B being given up to the elements of its arrays. -/
theorem stitch_keeps [F64 F] [ZeroLaw F] (geod : Geod F) (strict : Bool) (fa fb : List Byte) (nia nja nib njb nic njc : Nat)
    (c x : Grid F) (ea eb : Edge) (hc : stitch geod strict fa nia nja fb nib njb = .ok (c, nic, njc))
    (ha : addfringe geod strict fa nia nja fb nib njb = .ok (ea, eb, x)) :
    Spec.Opposite (ea, eb) ∧ Spec.edgeCells nia nja ea = Spec.edgeCells nib njb eb ∧
    (nic, njc) = Spec.joinedSize nia nja nib njb ea ∧ Spec.Complete c nic njc ∧
    ∃ a b : Grid F, readMitgrid fa nia nja strict = .ok a ∧ readMitgrid fb nib njb strict = .ok b ∧
      ∀ f, ∃ A B C, a f = .arr A ∧ b f = .arr B ∧ c f = .arr C ∧
        ∀ i j, i < Spec.nrows f nic → j < Spec.ncols f njc →
          (PyFloat.isZero (Spec.joinedAt nia nja nib njb ea f A B i j) = false ∨ f = .XG ∨ f = .YG) →
          C.get i j = Spec.joinedAt nia nja nib njb ea f A B i j := by
  obtain ⟨ea1, eb1, x1, b, k1, rb, ho, hcell, hsz, hj⟩ := C46_stitch_content geod strict fa fb nia nja nib njb nic njc c hc
  rw [ha] at k1; cases k1
  obtain ⟨-, a, ra, keepA⟩ := C43_addfringe_keeps geod strict fa fb nia nja nib njb ea eb x ha
  have s1 := congrArg Prod.fst hsz
  have s2 := congrArg Prod.snd hsz
  dsimp only at s1 s2
  refine ⟨ho, hcell, hsz, fun f => ?_, a, b, ra, rb, fun f => ?_⟩
  · obtain ⟨X', B', C, j1, j2, j3, j4, j5, j6⟩ := hj f
    exact ⟨C, j3, by rw [j4, s1], by rw [j5, s2]⟩
  obtain ⟨A, X, a1, a2, a3⟩ := keepA f
  obtain ⟨X', B, C, j1, j2, j3, j4, j5, j6⟩ := hj f
  rw [a2] at j1; cases j1
  refine ⟨A, B, C, a1, j2, j3, fun i j hi hj'' hv => ?_⟩
  rw [j6 i j (by rw [j4, ← s1]; exact hi) (by rw [j5, ← s2]; exact hj'')]
  have hr : ∀ k, Spec.nrows f k = k + Spec.nrows f 0 := fun k => by cases f <;> simp [Spec.nrows]
  have hcc : ∀ k, Spec.ncols f k = k + Spec.ncols f 0 := fun k => by cases f <;> simp [Spec.ncols]
  rw [hr] at hi
  rw [hcc] at hj''
  cases ea <;> cases eb <;> simp only [Spec.Opposite] at ho <;>
    simp only [Spec.joinedSize, Spec.edgeCells] at s1 s2 hcell <;> simp only [Spec.joinedAt] at hv ⊢ <;> split at hv <;> rename_i hif <;>
    first
      | (rw [if_pos hif, if_pos hif]; refine a3 _ _ ?_ ?_ hv <;> (first | rw [hr] | rw [hcc]) <;> (try rw [hr] at hif) <;> (try rw [hcc] at hif) <;> omega)
      | (rw [if_neg hif, if_neg hif])

/-- **C132**: three tiles in a row can be stitched in either order.  Let `u` be tiles A and B stitched, written to a file, stitched with tile D, and `v`
tile A stitched with the file of tiles B and D.  If all four calls succeed, each matching side `e` of its first tile, then `u` and `v` have the same
sizes, the same corner points everywhere, and the same entry wherever the tile it comes from has a nonzero one. -/
theorem C132_stitch_assoc [F64 F] [LawfulF64 F] [ZeroLaw F] (geod : Geod F) (strict : Bool) (fa fb fd fp fq old old' : List Byte)
    (na ma nb mb nd md np mp nq mq nu mu nv mv : Nat) (p q u v x1 x2 x3 x4 : Grid F) (e e1 e2 e3 e4 : Edge)
    (hp : stitch geod strict fa na ma fb nb mb = .ok (p, np, mp)) (hfp : writeMitgrid old p np mp = (fp, .ok ()))
    (hu : stitch geod strict fp np mp fd nd md = .ok (u, nu, mu))
    (hq : stitch geod strict fb nb mb fd nd md = .ok (q, nq, mq)) (hfq : writeMitgrid old' q nq mq = (fq, .ok ()))
    (hv : stitch geod strict fa na ma fq nq mq = .ok (v, nv, mv))
    (s1 : addfringe geod strict fa na ma fb nb mb = .ok (e, e1, x1)) (s2 : addfringe geod strict fp np mp fd nd md = .ok (e, e2, x2))
    (s3 : addfringe geod strict fb nb mb fd nd md = .ok (e, e3, x3)) (s4 : addfringe geod strict fa na ma fq nq mq = .ok (e, e4, x4)) :
    nu = nv ∧ mu = mv ∧ ∃ a b d : Grid F, readMitgrid fa na ma strict = .ok a ∧ readMitgrid fb nb mb strict = .ok b ∧
      readMitgrid fd nd md strict = .ok d ∧
      ∀ f, ∃ A B D U V, a f = .arr A ∧ b f = .arr B ∧ d f = .arr D ∧ u f = .arr U ∧ v f = .arr V ∧
        ∀ i j, i < Spec.nrows f nu → j < Spec.ncols f mu →
          (PyFloat.isZero (Spec.joinedAt np mp nd md e f (Spec.joinedMat na ma nb mb e f A B) D i j) = false ∨ f = .XG ∨ f = .YG) →
          U.get i j = Spec.joinedAt np mp nd md e f (Spec.joinedMat na ma nb mb e f A B) D i j ∧ V.get i j = U.get i j := by
  obtain ⟨o1, c1, z1, k1, a, b, ra, rb, w1⟩ := stitch_keeps geod strict fa fb na ma nb mb np mp p x1 e e1 hp s1
  obtain ⟨o3, c3, z3, k3, b', d, rb', rd, w3⟩ := stitch_keeps geod strict fb fd nb mb nd md nq mq q x3 e e3 hq s3
  rw [rb] at rb'; cases rb'
  obtain ⟨o2, c2, z2, k2, pr, d', rp, rd', w2⟩ := stitch_keeps geod strict fp fd np mp nd md nu mu u x2 e e2 hu s2
  rw [rd] at rd'; cases rd'
  obtain ⟨o4, c4, z4, k4, a', qr, ra', rq, w4⟩ := stitch_keeps geod strict fa fq na ma nq mq nv mv v x4 e e4 hv s4
  rw [ra] at ra'; cases ra'
  obtain ⟨fp', p', hw, hr, hs⟩ := C01_round_trip ZeroLaw.isZero_zero old p np mp strict k1
  rw [hfp] at hw; cases hw
  rw [rp] at hr; cases hr
  obtain ⟨fq', q', hw, hr, hs'⟩ := C01_round_trip ZeroLaw.isZero_zero old' q nq mq strict k3
  rw [hfq] at hw; cases hw
  rw [rq] at hr; cases hr
  have sizes : nu = nv ∧ mu = mv := by
    cases e <;> simp only [Spec.joinedSize, Prod.mk.injEq] at z1 z2 z3 z4 <;> omega
  refine ⟨sizes.1, sizes.2, a, b, d, ra, rb, rd, fun f => ?_⟩
  obtain ⟨A, B, P, a1, a2, a3, a4⟩ := w1 f
  obtain ⟨B', D, Q, b1, b2, b3, b4⟩ := w3 f
  rw [a2] at b1; cases b1
  obtain ⟨P', D', U, d1, d2, d3, d4⟩ := w2 f
  rw [b2] at d2; cases d2
  obtain ⟨A', Q', V, e1', e2', e3', e4'⟩ := w4 f
  rw [a1] at e1'; cases e1'
  obtain ⟨P1, l1, l2⟩ := GridSame.arr hs a3
  rw [d1] at l1; cases l1
  obtain ⟨Q1, l3, l4⟩ := GridSame.arr hs' b3
  rw [e2'] at l3; cases l3
  obtain ⟨P1, l5, l6, l7⟩ := k1 f
  rw [a3] at l5; cases l5
  obtain ⟨Q1, l8, l9, l10⟩ := k3 f
  rw [b3] at l8; cases l8
  refine ⟨A, B, D, U, V, a1, a2, b2, d3, e3', fun i j hi hj hval => ?_⟩
  -- the entry of the pair where it is used
  have st1 : np = (Spec.joinedSize na ma nb mb e).1 ∧ mp = (Spec.joinedSize na ma nb mb e).2 := ⟨congrArg Prod.fst z1, congrArg Prod.snd z1⟩
  have st3 : nq = (Spec.joinedSize nb mb nd md e).1 ∧ mq = (Spec.joinedSize nb mb nd md e).2 := ⟨congrArg Prod.fst z3, congrArg Prod.snd z3⟩
  have stu : nu = (Spec.joinedSize np mp nd md e).1 ∧ mu = (Spec.joinedSize np mp nd md e).2 := ⟨congrArg Prod.fst z2, congrArg Prod.snd z2⟩
  have stv : nv = (Spec.joinedSize na ma nq mq e).1 ∧ mv = (Spec.joinedSize na ma nq mq e).2 := ⟨congrArg Prod.fst z4, congrArg Prod.snd z4⟩
  have hr : ∀ k, Spec.nrows f k = k + Spec.nrows f 0 := fun k => by cases f <;> simp [Spec.nrows]
  have hcc : ∀ k, Spec.ncols f k = k + Spec.ncols f 0 := fun k => by cases f <;> simp [Spec.ncols]
  have pP : Spec.joinedAt np mp nd md e f P' D i j = Spec.joinedAt np mp nd md e f (Spec.joinedMat na ma nb mb e f A B) D i j := by
    have side : ∀ i' j', i' < Spec.nrows f np → j' < Spec.ncols f mp →
        (PyFloat.isZero (Spec.joinedAt na ma nb mb e f A B i' j') = false ∨ f = .XG ∨ f = .YG) →
        P'.get i' j' = Spec.joinedAt na ma nb mb e f A B i' j' := by
      intro i' j' h1 h2 h3
      rw [← l2.2.2 i' j' (by omega) (by omega)]
      exact a4 i' j' h1 h2 h3
    rw [hr] at hi side
    rw [hcc] at hj side
    clear z1 z2 z3 z4 st1 st3 stv
    obtain ⟨t1, t2⟩ := stu
    cases e <;> cases e2 <;> simp only [Spec.Opposite] at o2 <;>
      simp only [Spec.joinedSize, Spec.edgeCells] at t1 t2 c2 <;> simp only [Spec.joinedAt, Spec.joinedMat] at hval ⊢ <;> split at hval <;> rename_i hif <;>
      first
        | (rw [if_pos hif, if_pos hif]; refine side _ _ ?_ ?_ hval <;> (try rw [hr] at hif) <;> (try rw [hcc] at hif) <;> omega)
        | (rw [if_neg hif, if_neg hif])
  have asc := joinedAt_assoc na ma nb mb nd md e f A B D i j
  rw [← st1.1, ← st1.2, ← st3.1, ← st3.2] at asc
  have hval' := hval
  rw [asc] at hval'
  have qQ : Spec.joinedAt na ma nq mq e f A Q' i j = Spec.joinedAt na ma nq mq e f A (Spec.joinedMat nb mb nd md e f B D) i j := by
    have side : ∀ i' j', i' < Spec.nrows f nq → j' < Spec.ncols f mq →
        (PyFloat.isZero (Spec.joinedAt nb mb nd md e f B D i' j') = false ∨ f = .XG ∨ f = .YG) →
        Q'.get i' j' = Spec.joinedAt nb mb nd md e f B D i' j' := by
      intro i' j' h1 h2 h3
      rw [← l4.2.2 i' j' (by omega) (by omega)]
      exact b4 i' j' h1 h2 h3
    rw [hr] at hi side
    rw [hcc] at hj side
    rw [sizes.1] at hi
    rw [sizes.2] at hj
    clear z1 z2 z3 z4 st1 st3 stu asc hval
    obtain ⟨t1, t2⟩ := stv
    cases e <;> cases e4 <;> simp only [Spec.Opposite] at o4 <;>
      simp only [Spec.joinedSize, Spec.edgeCells] at t1 t2 c4 <;> simp only [Spec.joinedAt, Spec.joinedMat] at hval' ⊢ <;> split at hval' <;> rename_i hif <;>
      first
        | (rw [if_neg hif, if_neg hif]; refine side _ _ ?_ ?_ hval' <;> (try rw [hr] at hif) <;> (try rw [hcc] at hif) <;> omega)
        | (rw [if_pos hif, if_pos hif])
  have hU : U.get i j = Spec.joinedAt np mp nd md e f (Spec.joinedMat na ma nb mb e f A B) D i j := by
    rw [d4 i j hi hj (by rw [pP]; exact hval), pP]
  refine ⟨hU, ?_⟩
  rw [e4' i j (by rw [← sizes.1]; exact hi) (by rw [← sizes.2]; exact hj) (by rw [qQ]; exact hval'), qQ, hU, asc]

/-! ## Concrete cases -/

set_option maxRecDepth 40000 in
/-- The tiles at 0 and at 10 in both orders. -/
example : (addfringe Toy.geod true (exFile 0 0) 1 1 (exFile 10 0) 1 1).toOption.map (fun r => (r.1, r.2.1)) = some (.E, .W) ∧
    (addfringe Toy.geod true (exFile 10 0) 1 1 (exFile 0 0) 1 1).toOption.map (fun r => (r.1, r.2.1)) = some (.W, .E) := by decide +kernel

/-- An entry of `RAC` off the common side, not zero. -/
example : exView (stitch Toy.geod true (exFile 0 0) 1 1 (exFile 10 0) 1 1) [(.RAC, 1, 0), (.XG, 2, 1)] = some (2, 1, [7, 20]) ∧
    exView (stitch Toy.geod true (exFile 10 0) 1 1 (exFile 0 0) 1 1) [(.RAC, 1, 0), (.XG, 2, 1)] = some (2, 1, [7, 20]) := by decide +kernel

example : ¬ Spec.OnSeam 1 1 1 1 .E .RAC 1 0 := by unfold Spec.OnSeam; decide

set_option maxRecDepth 40000 in
/-- Three tiles in a row, at 0, 10 and 20: all four calls match the eastern side of their first tile. -/
example : (addfringe Toy.geod true exPair 2 1 (exFile 20 0) 1 1).toOption.map (fun r => (r.1, r.2.1)) = some (.E, .W) ∧
    (addfringe Toy.geod true (exFile 10 0) 1 1 (exFile 20 0) 1 1).toOption.map (fun r => (r.1, r.2.1)) = some (.E, .W) ∧
    (addfringe Toy.geod true (exFile 0 0) 1 1 (stitchMain (F := Toy) Toy.geod true (exFile 10 0) 1 1 (exFile 20 0) 1 1 []).1 2 1).toOption.map
      (fun r => (r.1, r.2.1)) = some (.E, .W) := by decide +kernel

end SG
