import Verif.Props.TileSwap
/-! # C135: four tiles in a block -/

set_option linter.unusedSectionVars false
namespace SG
variable {F : Type} [PyFloat F]

/-- Array `A` agrees with `V` wherever `V` is not zero, and everywhere if it holds corner points. -/
def KeepsOf (f : Field) (m n : Nat) (A V : Mat F) : Prop :=
  ∀ i j, i < Spec.nrows f m → j < Spec.ncols f n → (PyFloat.isZero (V.get i j) = false ∨ f = .XG ∨ f = .YG) → A.get i j = V.get i j

/-- Joining arrays that agree with `V` and `W` gives one that agrees with `V` and `W` joined. -/
theorem keeps_join (f : Field) (na ma nb mb : Nat) (e e' : Edge) (ho : Spec.Opposite (e, e')) (hc : Spec.edgeCells na ma e = Spec.edgeCells nb mb e')
    (A B V W C : Mat F) (hA : KeepsOf f na ma A V) (hB : KeepsOf f nb mb B W)
    (hC : KeepsOf f (Spec.joinedSize na ma nb mb e).1 (Spec.joinedSize na ma nb mb e).2 C (Spec.joinedMat na ma nb mb e f A B)) :
    KeepsOf f (Spec.joinedSize na ma nb mb e).1 (Spec.joinedSize na ma nb mb e).2 C (Spec.joinedMat na ma nb mb e f V W) := by
  intro i j hi hj hv
  have hr : ∀ k, Spec.nrows f k = k + Spec.nrows f 0 := fun k => by cases f <;> simp [Spec.nrows]
  have hcc : ∀ k, Spec.ncols f k = k + Spec.ncols f 0 := fun k => by cases f <;> simp [Spec.ncols]
  have key : Spec.joinedAt na ma nb mb e f A B i j = Spec.joinedAt na ma nb mb e f V W i j := by
    rw [hr] at hi
    rw [hcc] at hj
    unfold KeepsOf at hA hB
    rw [hr, hcc] at hA hB
    clear hC
    cases e <;> cases e' <;> simp only [Spec.Opposite] at ho <;>
      simp only [Spec.joinedSize, Spec.edgeCells] at hi hj hc <;> simp only [Spec.joinedAt, Spec.joinedMat] at hv ⊢ <;> split at hv <;> rename_i hif <;>
      first
        | (rw [if_pos hif, if_pos hif]; refine hA _ _ ?_ ?_ hv <;> (try rw [hr] at hif) <;> (try rw [hcc] at hif) <;> omega)
        | (rw [if_neg hif, if_neg hif]; refine hB _ _ ?_ ?_ hv <;> (try rw [hr] at hif) <;> (try rw [hcc] at hif) <;> omega)
  have := hC i j hi hj (by
    show PyFloat.isZero (Spec.joinedAt na ma nb mb e f A B i j) = false ∨ _
    rw [key]; exact hv)
  rw [this]
  exact key

/-- Four tiles joined by rows or by columns. -/
theorem joinedAt_block (n1 m1 n2 m2 n3 m3 n4 m4 : Nat) (e e' : Edge) (he : e = .E ∨ e = .W) (he' : e' = .N ∨ e' = .S) (f : Field) (A B C D : Mat F)
    (h1 : m1 = m2) (h2 : m3 = m4) (h3 : n1 = n3) (h4 : n2 = n4) (i j : Nat) :
    Spec.joinedAt (Spec.joinedSize n1 m1 n2 m2 e).1 (Spec.joinedSize n1 m1 n2 m2 e).2 (Spec.joinedSize n3 m3 n4 m4 e).1 (Spec.joinedSize n3 m3 n4 m4 e).2 e' f
      (Spec.joinedMat n1 m1 n2 m2 e f A B) (Spec.joinedMat n3 m3 n4 m4 e f C D) i j =
    Spec.joinedAt (Spec.joinedSize n1 m1 n3 m3 e').1 (Spec.joinedSize n1 m1 n3 m3 e').2 (Spec.joinedSize n2 m2 n4 m4 e').1 (Spec.joinedSize n2 m2 n4 m4 e').2 e f
      (Spec.joinedMat n1 m1 n3 m3 e' f A C) (Spec.joinedMat n2 m2 n4 m4 e' f B D) i j := by
  subst h1 h2 h3 h4
  rcases he with rfl | rfl <;> rcases he' with rfl | rfl <;> simp only [Spec.joinedSize, Spec.joinedAt, Spec.joinedMat]
  all_goals split <;> rename_i h <;> simp only [h, if_true, if_false]

/-- `stitch` of two files, whose arrays agree with `V` and `W`. -/
theorem stitch_keepsOf [F64 F] [LawfulF64 F] [ZeroLaw F] (geod : Geod F) (strict : Bool) (fa fb : List Byte) (na ma nb mb nc mc : Nat) (c x a b : Grid F)
    (e e' : Edge) (hc : stitch geod strict fa na ma fb nb mb = .ok (c, nc, mc)) (hx : addfringe geod strict fa na ma fb nb mb = .ok (e, e', x))
    (ra : readMitgrid fa na ma strict = .ok a) (rb : readMitgrid fb nb mb strict = .ok b) (V W : Field → Mat F)
    (hV : ∀ f, ∃ A, a f = .arr A ∧ KeepsOf f na ma A (V f)) (hW : ∀ f, ∃ B, b f = .arr B ∧ KeepsOf f nb mb B (W f)) :
    Spec.edgeCells na ma e = Spec.edgeCells nb mb e' ∧ Spec.Opposite (e, e') ∧ (nc, mc) = Spec.joinedSize na ma nb mb e ∧ Spec.Complete c nc mc ∧
    ∀ f, ∃ C, c f = .arr C ∧ KeepsOf f nc mc C (Spec.joinedMat na ma nb mb e f (V f) (W f)) := by
  obtain ⟨o, cells, z, k, a', b', ra', rb', w⟩ := stitch_keeps geod strict fa fb na ma nb mb nc mc c x e e' hc hx
  rw [ra] at ra'; cases ra'
  rw [rb] at rb'; cases rb'
  have z1 := congrArg Prod.fst z
  have z2 := congrArg Prod.snd z
  dsimp only at z1 z2
  refine ⟨cells, o, z, k, fun f => ?_⟩
  obtain ⟨A, B, C, a1, b1, c1, w1⟩ := w f
  obtain ⟨A', a2, kA⟩ := hV f
  rw [a1] at a2; cases a2
  obtain ⟨B', b2, kB⟩ := hW f
  rw [b1] at b2; cases b2
  refine ⟨C, c1, ?_⟩
  rw [z1, z2]
  exact keeps_join f na ma nb mb e e' o cells A B (V f) (W f) C kA kB (by rw [← z1, ← z2]; exact w1)

/-- A file written from a grid and read. -/
theorem file_keepsOf [F64 F] [LawfulF64 F] [ZeroLaw F] (p : Grid F) (np mp : Nat) (hp : Spec.Complete p np mp) (strict : Bool) (old fp : List Byte)
    (hw : writeMitgrid old p np mp = (fp, .ok ())) (V : Field → Mat F) (hV : ∀ f, ∃ P, p f = .arr P ∧ KeepsOf f np mp P (V f)) :
    ∃ p', readMitgrid fp np mp strict = .ok p' ∧ ∀ f, ∃ P, p' f = .arr P ∧ KeepsOf f np mp P (V f) := by
  obtain ⟨fp', p', hw', hr, hs⟩ := C01_round_trip ZeroLaw.isZero_zero old p np mp strict hp
  rw [hw] at hw'; cases hw'
  refine ⟨p', hr, fun f => ?_⟩
  obtain ⟨P, p1, kP⟩ := hV f
  obtain ⟨P', p2, p3⟩ := GridSame.arr hs p1
  obtain ⟨P1, l1, l2, l3⟩ := hp f
  rw [p1] at l1; cases l1
  refine ⟨P', p2, fun i j hi hj hv => ?_⟩
  rw [← p3.2.2 i j (by omega) (by omega)]
  exact kP i j hi hj hv

/-- **C135**: four tiles in a block can be stitched by rows or by columns.  Tile A is first, tile B beside it on side `e` (east or west), tile C on side
`e'` (north or south), tile D in the opposite corner of the block.  Let `u` be (A and B) stitched with (C and D), and `v` (A and C) stitched with (B and
D), each pair being written to a file.  If all six calls succeed, matching these sides, then `u` and `v` have the same sizes, the same corner points
everywhere, and the same entry wherever the tile it comes from has a nonzero one. -/
theorem C135_stitch_block [F64 F] [LawfulF64 F] [ZeroLaw F] (geod : Geod F) (strict : Bool) (fa fb fc fd fp fq fr fs o1 o2 o3 o4 : List Byte)
    (na ma nb mb nc mc nd md np mp nq mq nr mr ns ms nu mu nv mv : Nat) (p q r s u v x1 x2 x3 x4 x5 x6 : Grid F) (e e' w1 w2 w3 w4 w5 w6 : Edge)
    (he : e = .E ∨ e = .W) (he' : e' = .N ∨ e' = .S)
    (hp : stitch geod strict fa na ma fb nb mb = .ok (p, np, mp)) (hfp : writeMitgrid o1 p np mp = (fp, .ok ()))
    (hq : stitch geod strict fc nc mc fd nd md = .ok (q, nq, mq)) (hfq : writeMitgrid o2 q nq mq = (fq, .ok ()))
    (hu : stitch geod strict fp np mp fq nq mq = .ok (u, nu, mu))
    (hr : stitch geod strict fa na ma fc nc mc = .ok (r, nr, mr)) (hfr : writeMitgrid o3 r nr mr = (fr, .ok ()))
    (hs : stitch geod strict fb nb mb fd nd md = .ok (s, ns, ms)) (hfs : writeMitgrid o4 s ns ms = (fs, .ok ()))
    (hv : stitch geod strict fr nr mr fs ns ms = .ok (v, nv, mv))
    (s1 : addfringe geod strict fa na ma fb nb mb = .ok (e, w1, x1)) (s2 : addfringe geod strict fc nc mc fd nd md = .ok (e, w2, x2))
    (s3 : addfringe geod strict fp np mp fq nq mq = .ok (e', w3, x3)) (s4 : addfringe geod strict fa na ma fc nc mc = .ok (e', w4, x4))
    (s5 : addfringe geod strict fb nb mb fd nd md = .ok (e', w5, x5)) (s6 : addfringe geod strict fr nr mr fs ns ms = .ok (e, w6, x6)) :
    nu = nv ∧ mu = mv ∧ ∃ a b c d : Grid F, readMitgrid fa na ma strict = .ok a ∧ readMitgrid fb nb mb strict = .ok b ∧
      readMitgrid fc nc mc strict = .ok c ∧ readMitgrid fd nd md strict = .ok d ∧
      ∀ f, ∃ A B C D U V, a f = .arr A ∧ b f = .arr B ∧ c f = .arr C ∧ d f = .arr D ∧ u f = .arr U ∧ v f = .arr V ∧
        ∀ i j, i < Spec.nrows f nu → j < Spec.ncols f mu → ∀ val,
          val = Spec.joinedAt np mp nq mq e' f (Spec.joinedMat na ma nb mb e f A B) (Spec.joinedMat nc mc nd md e f C D) i j →
          (PyFloat.isZero val = false ∨ f = .XG ∨ f = .YG) → U.get i j = val ∧ V.get i j = val := by
  obtain ⟨-, -, -, -, a, b, ra, rb, -⟩ := stitch_keeps geod strict fa fb na ma nb mb np mp p x1 e w1 hp s1
  obtain ⟨-, -, -, -, c, d, rc, rd, -⟩ := stitch_keeps geod strict fc fd nc mc nd md nq mq q x2 e w2 hq s2
  have self : ∀ (g : Grid F) m n, Spec.Complete g m n → ∃ G : Field → Mat F, (∀ f, g f = .arr (G f)) ∧ ∀ f, ∃ A, g f = .arr A ∧ KeepsOf f m n A (G f) := by
    intro g m n hg
    obtain ⟨G, h, -⟩ := Complete.choose hg
    exact ⟨G, h, fun f => ⟨G f, h f, fun _ _ _ _ _ => rfl⟩⟩
  obtain ⟨A, hA, kA⟩ := self a na ma (read_complete fa na ma strict a ra)
  obtain ⟨B, hB, kB⟩ := self b nb mb (read_complete fb nb mb strict b rb)
  obtain ⟨C, hC, kC⟩ := self c nc mc (read_complete fc nc mc strict c rc)
  obtain ⟨D, hD, kD⟩ := self d nd md (read_complete fd nd md strict d rd)
  obtain ⟨c1, oo1, z1, k1, kp⟩ := stitch_keepsOf geod strict fa fb na ma nb mb np mp p x1 a b e w1 hp s1 ra rb A B kA kB
  obtain ⟨c2, oo2, z2, k2, kq⟩ := stitch_keepsOf geod strict fc fd nc mc nd md nq mq q x2 c d e w2 hq s2 rc rd C D kC kD
  obtain ⟨c4, oo4, z4, k4, kr⟩ := stitch_keepsOf geod strict fa fc na ma nc mc nr mr r x4 a c e' w4 hr s4 ra rc A C kA kC
  obtain ⟨c5, oo5, z5, k5, ks⟩ := stitch_keepsOf geod strict fb fd nb mb nd md ns ms s x5 b d e' w5 hs s5 rb rd B D kB kD
  obtain ⟨p', rp, kp'⟩ := file_keepsOf p np mp k1 strict o1 fp hfp _ kp
  obtain ⟨q', rq, kq'⟩ := file_keepsOf q nq mq k2 strict o2 fq hfq _ kq
  obtain ⟨r', rr, kr'⟩ := file_keepsOf r nr mr k4 strict o3 fr hfr _ kr
  obtain ⟨s', rs, ks'⟩ := file_keepsOf s ns ms k5 strict o4 fs hfs _ ks
  obtain ⟨c3, oo3, z3, k3, ku⟩ := stitch_keepsOf geod strict fp fq np mp nq mq nu mu u x3 p' q' e' w3 hu s3 rp rq _ _ kp' kq'
  obtain ⟨c6, oo6, z6, k6, kv⟩ := stitch_keepsOf geod strict fr fs nr mr ns ms nv mv v x6 r' s' e w6 hv s6 rr rs _ _ kr' ks'
  have eqs : ma = mb ∧ mc = md ∧ na = nc ∧ nb = nd := by
    clear hp hq hr hs hu hv s1 s2 s3 s4 s5 s6 z1 z2 z3 z4 z5 z6
    refine ⟨?_, ?_, ?_, ?_⟩
    · rcases he with rfl | rfl <;> cases w1 <;> simp only [Spec.Opposite] at oo1 <;> exact c1
    · rcases he with rfl | rfl <;> cases w2 <;> simp only [Spec.Opposite] at oo2 <;> exact c2
    · rcases he' with rfl | rfl <;> cases w4 <;> simp only [Spec.Opposite] at oo4 <;> exact c4
    · rcases he' with rfl | rfl <;> cases w5 <;> simp only [Spec.Opposite] at oo5 <;> exact c5
  obtain ⟨q1, q2, q3, q4⟩ := eqs
  have sizes : nu = nv ∧ mu = mv := by
    rcases he with rfl | rfl <;> rcases he' with rfl | rfl <;> simp only [Spec.joinedSize, Prod.mk.injEq] at z1 z2 z3 z4 z5 z6 <;> omega
  refine ⟨sizes.1, sizes.2, a, b, c, d, ra, rb, rc, rd, fun f => ?_⟩
  obtain ⟨U, u1, u2⟩ := ku f
  obtain ⟨V, v1, v2⟩ := kv f
  refine ⟨A f, B f, C f, D f, U, V, hA f, hB f, hC f, hD f, u1, v1, fun i j hi hj val hval nz => ?_⟩
  have blk := joinedAt_block na ma nb mb nc mc nd md e e' he he' f (A f) (B f) (C f) (D f) q1 q2 q3 q4 i j
  rw [← z1, ← z2, ← z4, ← z5] at blk
  have e1 := u2 i j hi hj (by
    show PyFloat.isZero (Spec.joinedAt np mp nq mq e' f (Spec.joinedMat na ma nb mb e f (A f) (B f)) (Spec.joinedMat nc mc nd md e f (C f) (D f)) i j) = false ∨ _
    rw [← hval]; exact nz)
  have e2 := v2 i j (by rw [← sizes.1]; exact hi) (by rw [← sizes.2]; exact hj) (by
    show PyFloat.isZero (Spec.joinedAt nr mr ns ms e f (Spec.joinedMat na ma nc mc e' f (A f) (C f)) (Spec.joinedMat nb mb nd md e' f (B f) (D f)) i j) = false ∨ _
    rw [← blk, ← hval]; exact nz)
  exact ⟨e1.trans hval.symm, e2.trans (blk.symm.trans hval.symm)⟩

set_option maxRecDepth 40000 in
/-- The tiles at (0,0), (10,0), (0,10) and (10,10): all six calls succeed and match east and north. -/
example :
    let st (fa : List Byte) (na ma : Nat) (fb : List Byte) (nb mb : Nat) := (stitchMain (F := Toy) Toy.geod true fa na ma fb nb mb []).1
    let ed (fa : List Byte) (na ma : Nat) (fb : List Byte) (nb mb : Nat) := (addfringe Toy.geod true fa na ma fb nb mb).toOption.map fun r => (r.1, r.2.1)
    ed (exFile 0 0) 1 1 (exFile 10 0) 1 1 = some (.E, .W) ∧ ed (exFile 0 10) 1 1 (exFile 10 10) 1 1 = some (.E, .W) ∧
    ed (st (exFile 0 0) 1 1 (exFile 10 0) 1 1) 2 1 (st (exFile 0 10) 1 1 (exFile 10 10) 1 1) 2 1 = some (.N, .S) ∧
    ed (exFile 0 0) 1 1 (exFile 0 10) 1 1 = some (.N, .S) ∧ ed (exFile 10 0) 1 1 (exFile 10 10) 1 1 = some (.N, .S) ∧
    ed (st (exFile 0 0) 1 1 (exFile 0 10) 1 1) 1 2 (st (exFile 10 0) 1 1 (exFile 10 10) 1 1) 1 2 = some (.E, .W) := by decide +kernel

end SG
