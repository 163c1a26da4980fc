import Verif.Props.Commands
import Verif.Props.AnySide
/-! # C90 on all four sides -/

set_option linter.unusedSectionVars false
namespace SG.Cli
open SG.Cli.Spec
variable {F : Type} [PyFloat F] [F64 F]

/-- **C90**, any side: two `sgmkgrid` command lines for boxes that share a side, and an `sgstitch` command line, end normally; the last file holds the
corner points of the two tiles side by side or one above the other, and apart from the three output files no file is changed. -/
theorem C90_any_side [FloatTotal F] [LawfulF64 F] [ZeroLaw F] (pf : Text → Option F) (pi : Text → Option Int) (geod : Geod F)
    (a1 a2 a3 a4 b1 b2 b3 b4 : F) (ma na mb nb : Nat) (hma : 1 ≤ ma) (hna : 1 ≤ na) (hmb : 1 ≤ mb) (hnb : 1 ≤ nb) (ae be : Edge)
    (h : SG.Spec.ShareSide geod (SG.Spec.boxCorner a1 a2 a3 a4) (SG.Spec.boxCorner b1 b2 b3 b4) ae be)
    (hcells : SG.Spec.edgeCells ma na ae = SG.Spec.edgeCells mb nb be) (A B S : List Item) (fa fb fc : Text) (hab : fa ≠ fb)
    (hA : MkgridLine pf pi A a1 a2 a3 a4 ma na fa) (hB : MkgridLine pf pi B b1 b2 b3 b4 mb nb fb)
    (hS : TilesLine pf pi S fa ma na fb mb nb fc) (w : World) :
    ∃ w1 w2 w3 bytes c a b, sgmkgrid pf pi geod (line A) w = (w1, .done) ∧ sgmkgrid pf pi geod (line B) w1 = (w2, .done) ∧
      sgstitch pf pi geod (line S) w2 = (w3, .done) ∧ w3 fc = some bytes ∧ (∀ g, g ≠ fa → g ≠ fb → g ≠ fc → w3 g = w g) ∧
      readMitgrid bytes (SG.Spec.joinedSize ma na mb nb ae).1 (SG.Spec.joinedSize ma na mb nb ae).2 true = .ok c ∧
      mkgrid geod a1 a2 a3 a4 ma na = .ok (a, (ma : Int), (na : Int)) ∧
      mkgrid geod b1 b2 b3 b4 mb nb = .ok (b, (mb : Int), (nb : Int)) ∧
      ∀ f, f = .XG ∨ f = .YG → ∃ A B C, a f = .arr A ∧ b f = .arr B ∧ c f = .arr C ∧
        ∀ i j, i ≤ (SG.Spec.joinedSize ma na mb nb ae).1 → j ≤ (SG.Spec.joinedSize ma na mb nb ae).2 →
          C.get i j = SG.Spec.joinedAt ma na mb nb ae f A B i j := by
  have k1 := mkgrid_line geod hA hma hna w
  have k2 := mkgrid_line geod hB hmb hnb (w.put fa (mkgridMain geod a1 a2 a3 a4 ma na []).1)
  obtain ⟨bytes, c, a, b, h1, h2, h3, h4, h5⟩ := C78_any_side geod a1 a2 a3 a4 b1 b2 b3 b4 ma na mb nb hma hna hmb hnb ae be h hcells [] []
    ((((w.put fa (mkgridMain geod a1 a2 a3 a4 ma na []).1).put fb (mkgridMain geod b1 b2 b3 b4 mb nb []).1) fc).getD [])
    (Ns.flag (given pf pi S) "--strict")
  have k3 := stitch_line geod hS _ _ _ (by
    show (if fa = fb then _ else if fa = fa then _ else _) = _
    rw [if_neg hab, if_pos rfl]) (by
    show (if fb = fb then _ else _) = _
    rw [if_pos rfl]) bytes h1
  refine ⟨_, _, _, bytes, c, a, b, k1, k2, k3, ?_, ?_, h2, h3, h4, h5⟩
  · show (if fc = fc then _ else _) = _
    rw [if_pos rfl]
  · intro g g1 g2 g3
    show (if g = fc then _ else if g = fb then _ else if g = fa then _ else _) = _
    rw [if_neg g3, if_neg g2, if_neg g1]

/-! ## A tile and the tile north of it -/

namespace ExCli
def B2 : List Item := [.pair (fl "--lon1") "10".toList, .glued (fl "--lat1") "30".toList, .pair (fl "--lon2") "50".toList,
  .pair (fl "--lat2") "20".toList, .pair (int "--lon_subscale") "2".toList, .pair (int "--lat_subscale") "3".toList,
  .pair (txt "--outfile") "b".toList]
theorem B2_line : MkgridLine pf pi B2 10 30 50 20 2 3 "b".toList := by
  refine ⟨⟨?_, by decide +kernel⟩, by decide +kernel, by decide +kernel, by decide +kernel, by decide +kernel, by decide +kernel,
    by decide +kernel, by decide +kernel, by decide⟩
  intro it h
  simp only [B2, List.mem_cons, List.not_mem_nil, or_false] at h
  rcases h with rfl | rfl | rfl | rfl | rfl | rfl | rfl
  · exact ⟨by decide +kernel, by decide, .inl (by decide)⟩
  · exact ⟨by decide +kernel, by decide⟩
  all_goals exact ⟨by decide +kernel, by decide, .inl (by decide)⟩
def S2 : List Item := [.flag strictOpt, .pair (req (txt "--tilea")) "a".toList, .pair (req (int "--nia")) "2".toList,
  .pair (req (int "--nja")) "1".toList, .pair (req (txt "--tileb")) "b".toList, .pair (req (int "--nib")) "2".toList,
  .pair (req (int "--njb")) "3".toList, .pair (req (txt "--outfile")) "c".toList]
theorem S2_line : TilesLine pf pi S2 "a".toList 2 1 "b".toList 2 3 "c".toList := by
  refine ⟨⟨?_, by decide +kernel⟩, by decide +kernel, by decide +kernel, by decide +kernel, by decide +kernel, by decide +kernel,
    by decide +kernel, by decide +kernel, by decide⟩
  intro it h
  simp only [S2, List.mem_cons, List.not_mem_nil, or_false] at h
  rcases h with rfl | rfl | rfl | rfl | rfl | rfl | rfl | rfl
  · exact ⟨by decide +kernel, by decide⟩
  all_goals exact ⟨by decide +kernel, by decide, .inl (by decide)⟩
example (w : World) : ∃ w1 w2 w3, sgmkgrid pf pi Toy.geod (line A) w = (w1, .done) ∧ sgmkgrid pf pi Toy.geod (line B2) w1 = (w2, .done) ∧
    sgstitch pf pi Toy.geod (line S2) w2 = (w3, .done) ∧ ∀ g, g ≠ "a".toList → g ≠ "b".toList → g ≠ "c".toList → w3 g = w g := by
  obtain ⟨w1, w2, w3, -, -, -, -, h1, h2, h3, -, h4, -⟩ := C90_any_side pf pi Toy.geod 10 20 50 10 10 30 50 20 2 1 2 3 (by decide) (by decide)
    (by decide) (by decide) .N .S exNorth rfl A B2 S2 _ _ _ (by decide) A_line B2_line S2_line w
  exact ⟨w1, w2, w3, h1, h2, h3, h4⟩
end ExCli

end SG.Cli
