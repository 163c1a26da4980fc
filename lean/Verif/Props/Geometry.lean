import Verif.Props.ComputeGrid
import Mathlib.Analysis.SpecialFunctions.Trigonometric.Inverse
import Mathlib.Geometry.Euclidean.Angle.Unoriented.TriangleInequality
import Mathlib.Analysis.InnerProductSpace.PiL2
import Mathlib.Tactic.Linarith
import Mathlib.Tactic.Ring
import Mathlib.Tactic.FieldSimp
import Mathlib.Tactic.Positivity
/-! # C13–C15: geometry in exact (real) arithmetic

Rounding is not modelled.  `np.arccos` outside [-1,1] and division by zero (NaN in numpy) do not
occur for the non-degenerate inputs considered. -/

namespace SG
open Real

/-- Exact arithmetic. -/
noncomputable instance realArith : Arith ℝ where
  zero := 0
  half := 1 / 2
  two := 2
  pi := π
  add := (· + ·)
  sub := (· - ·)
  mul := (· * ·)
  div := (· / ·)
  cos := Real.cos
  sin := Real.sin
  arccos := Real.arccos
  radians x := x * π / 180
  sqrt := Real.sqrt

@[simp] theorem add_r (x y : ℝ) : x +ₚ y = x + y := rfl
@[simp] theorem sub_r (x y : ℝ) : x -ₚ y = x - y := rfl
@[simp] theorem mul_r (x y : ℝ) : x *ₚ y = x * y := rfl
@[simp] theorem div_r (x y : ℝ) : x /ₚ y = x / y := rfl

namespace Spec
/-- Squared Euclidean distance in space. -/
def dist2 (p q : V3 ℝ) : ℝ := (p.x - q.x) ^ 2 + (p.y - q.y) ^ 2 + (p.z - q.z) ^ 2
/-- Scalar product. -/
def inner3 (p q : V3 ℝ) : ℝ := p.x * q.x + p.y * q.y + p.z * q.z
/-- On the unit sphere. -/
def OnSphere (p : V3 ℝ) : Prop := inner3 p p = 1
end Spec

/-! ## C13: `lonlat2cart` -/

theorem cart1_unit (lon lat : ℝ) : Spec.OnSphere (lonlat2cart1 lon lat) := by
  unfold Spec.OnSphere Spec.inner3 lonlat2cart1
  simp only [mul_r, Arith.cos, Arith.sin]
  have h1 := Real.sin_sq_add_cos_sq (Arith.radians lon)
  have h2 := Real.sin_sq_add_cos_sq (Arith.radians lat)
  calc _ = (sin (Arith.radians lon) ^ 2 + cos (Arith.radians lon) ^ 2) * cos (Arith.radians lat) ^ 2
      + sin (Arith.radians lat) ^ 2 := by ring
    _ = 1 := by rw [h1]; linarith

/-- **C13** (norm 1): every triple returned lies on the unit sphere, for every `rad`. -/
theorem C13_unit_norm (lons lats : Mat ℝ) (rad : ℝ) (c : Mat (V3 ℝ))
    (h : lonlat2cart lons lats rad = .ok c) :
    c.rows = lons.rows ∧ c.cols = lons.cols ∧ ∀ i j, Spec.OnSphere (c.get i j) := by
  unfold lonlat2cart at h
  split at h
  · cases h
  · cases h; exact ⟨rfl, rfl, fun i j => cart1_unit _ _⟩

/-- **C13** (raises iff the shapes differ). -/
theorem C13_raises_iff (lons lats : Mat ℝ) (rad : ℝ) :
    lonlat2cart lons lats rad = .error .valueError ↔
      ¬ (lons.rows = lats.rows ∧ lons.cols = lats.cols) := by
  unfold lonlat2cart
  constructor
  · intro h; split at h
    · omega
    · cases h
  · intro h; rw [if_pos (by omega)]

/-- **C13** (periodicity): shifting any longitudes by multiples of 360 degrees changes nothing. -/
theorem C13_periodic (lons lats : Mat ℝ) (rad : ℝ) (k : Nat → Nat → ℤ) :
    lonlat2cart ⟨lons.rows, lons.cols, fun i j => lons.get i j + 360 * k i j⟩ lats rad =
      lonlat2cart lons lats rad := by
  unfold lonlat2cart
  congr 3
  funext i j
  have : (Arith.radians (lons.get i j + 360 * k i j) : ℝ) =
      Arith.radians (lons.get i j) + k i j * (2 * π) := by
    show (lons.get i j + 360 * k i j) * π / 180 = lons.get i j * π / 180 + k i j * (2 * π)
    ring
  unfold lonlat2cart1
  rw [this]
  simp only [Arith.cos, Arith.sin, Real.cos_add_int_mul_two_pi, Real.sin_add_int_mul_two_pi]

/-- **C13** (pointwise): the triple at `(i,j)` depends only on the lon/lat at `(i,j)`. -/
theorem C13_pointwise (lons lats lons' lats' : Mat ℝ) (rad rad' : ℝ) (c c' : Mat (V3 ℝ))
    (h : lonlat2cart lons lats rad = .ok c) (h' : lonlat2cart lons' lats' rad' = .ok c') (i j : Nat)
    (e1 : lons.get i j = lons'.get i j) (e2 : lats.get i j = lats'.get i j) :
    c.get i j = c'.get i j := by
  unfold lonlat2cart at h h'
  split at h
  · cases h
  split at h'
  · cases h'
  cases h; cases h'
  simp only [e1, e2]

/-- **C13** (`rad` is ignored): the documented sphere radius has no effect, so for non-negative `rad ≠ 1` no
returned point is at distance `rad` from the origin. -/
theorem C13_rad_ignored (lons lats : Mat ℝ) (rad rad' : ℝ) :
    lonlat2cart lons lats rad = lonlat2cart lons lats rad' ∧
    (0 ≤ rad → rad ≠ 1 → ∀ c, lonlat2cart lons lats rad = .ok c → ∀ i j,
      Spec.inner3 (c.get i j) (c.get i j) ≠ rad ^ 2) := by
  refine ⟨rfl, fun h0 h1 c h i j he => ?_⟩
  rw [(C13_unit_norm lons lats rad c h).2.2 i j] at he
  apply h1
  nlinarith [sq_nonneg (rad - 1), sq_nonneg (rad + 1)]

example : ∃ c, lonlat2cart (⟨1, 2, fun _ j => if j = 0 then 0 else 90⟩ : Mat ℝ) ⟨1, 2, fun _ _ => 0⟩ 5 = .ok c :=
  ⟨_, if_neg (by simp)⟩

/-! ## C14: `pquad_uarea` -/

theorem dot_r (p q : V3 ℝ) : p.dot q = Spec.inner3 p q := rfl

/-- Lagrange's identity. -/
theorem lagrange (u v : V3 ℝ) : Spec.inner3 (u.cross v) (u.cross v) =
    Spec.inner3 u u * Spec.inner3 v v - Spec.inner3 u v ^ 2 := by
  simp only [Spec.inner3, V3.cross, mul_r, sub_r]; ring

theorem norm_r (v : V3 ℝ) : v.norm = Real.sqrt (Spec.inner3 v v) := rfl

/-- Area of a triangle in space: half the length of the cross product of two sides, here written with
Lagrange's identity to be independent of the model's cross product. -/
noncomputable def Spec.triArea (p q r : V3 ℝ) : ℝ :=
  Real.sqrt (Spec.inner3 (q.sub p) (q.sub p) * Spec.inner3 (r.sub p) (r.sub p)
    - Spec.inner3 (q.sub p) (r.sub p) ^ 2) / 2

theorem pquad_eq (A B C D : V3 ℝ) : pquadCell A B C D =
    Real.sqrt (Spec.inner3 (C.sub A) (C.sub A) * Spec.inner3 (D.sub B) (D.sub B)
      - Spec.inner3 (C.sub A) (D.sub B) ^ 2) / 2 := by
  rw [← lagrange]
  unfold pquadCell
  simp only [norm_r, mul_r]
  have : ((B.sub A).cross (C.sub A)).add ((C.sub A).cross (D.sub A)) = (C.sub A).cross (D.sub B) := by
    simp only [V3.add, V3.cross, V3.sub, add_r, mul_r, sub_r, V3.mk.injEq]
    refine ⟨by ring, by ring, by ring⟩
  rw [this]
  show 1 / 2 * _ = _ / 2
  ring

/-- **C14** (distance formula): the cell area is determined by the six distances between its corners
(Bretschneider's formula in space); in particular rigid motions do not change it. -/
theorem C14_bretschneider (A B C D : V3 ℝ) : pquadCell A B C D =
    Real.sqrt (4 * Spec.dist2 A C * Spec.dist2 B D
      - (Spec.dist2 A B + Spec.dist2 C D - Spec.dist2 B C - Spec.dist2 A D) ^ 2) / 4 := by
  rw [pquad_eq]
  have : 4 * Spec.dist2 A C * Spec.dist2 B D
      - (Spec.dist2 A B + Spec.dist2 C D - Spec.dist2 B C - Spec.dist2 A D) ^ 2 =
      2 ^ 2 * (Spec.inner3 (C.sub A) (C.sub A) * Spec.inner3 (D.sub B) (D.sub B)
      - Spec.inner3 (C.sub A) (D.sub B) ^ 2) := by
    simp only [Spec.dist2, Spec.inner3, V3.sub, sub_r]; ring
  rw [this, Real.sqrt_mul (by norm_num), Real.sqrt_sq (by norm_num)]
  ring

/-- **C14** (rigid motions): any distance-preserving map of space leaves the area unchanged. -/
theorem C14_rigid_motion (T : V3 ℝ → V3 ℝ) (hT : ∀ p q, Spec.dist2 (T p) (T q) = Spec.dist2 p q)
    (A B C D : V3 ℝ) : pquadCell (T A) (T B) (T C) (T D) = pquadCell A B C D := by
  simp only [C14_bretschneider, hT]

/-- Rotation by 90 degrees about the z-axis followed by a shift is such a map. -/
example : ∀ p q : V3 ℝ, Spec.dist2 ⟨-p.y + 3, p.x, p.z⟩ ⟨-q.y + 3, q.x, q.z⟩ = Spec.dist2 p q := by
  intro p q; simp only [Spec.dist2]; ring

/-- **C14** (sign, corner order): the area is non-negative and independent of which corner is listed
first and of the orientation. -/
theorem C14_nonneg_and_order (A B C D : V3 ℝ) :
    0 ≤ pquadCell A B C D ∧ pquadCell B C D A = pquadCell A B C D ∧
      pquadCell D C B A = pquadCell A B C D := by
  refine ⟨by rw [pquad_eq]; positivity, ?_, ?_⟩ <;> rw [pquad_eq, pquad_eq] <;> congr 2 <;>
    simp only [Spec.inner3, V3.sub, sub_r] <;> ring

/-- The diagonals `AC`, `BD` meet: a planar convex quadrilateral. -/
def Spec.Convex (A B C D : V3 ℝ) : Prop :=
  ∃ l m : ℝ, 0 ≤ l ∧ l ≤ 1 ∧ 0 ≤ m ∧ m ≤ 1 ∧
    A.x + l * (C.x - A.x) = B.x + m * (D.x - B.x) ∧
    A.y + l * (C.y - A.y) = B.y + m * (D.y - B.y) ∧
    A.z + l * (C.z - A.z) = B.z + m * (D.z - B.z)

theorem triangles_diag (A B C D : V3 ℝ) (h : Spec.Convex A B C D) :
    pquadCell A B C D = Spec.triArea A B C + Spec.triArea A C D := by
  obtain ⟨l, m, hl, hl1, hm, hm1, hx, hy, hz⟩ := h
  rw [pquad_eq]
  set q : ℝ := Spec.inner3 (C.sub A) (C.sub A) * Spec.inner3 (D.sub B) (D.sub B)
      - Spec.inner3 (C.sub A) (D.sub B) ^ 2 with hq
  have bx : B.x = A.x + l * (C.x - A.x) - m * (D.x - B.x) := by linarith
  have bY : B.y = A.y + l * (C.y - A.y) - m * (D.y - B.y) := by linarith
  have bz : B.z = A.z + l * (C.z - A.z) - m * (D.z - B.z) := by linarith
  have sx : B.x - A.x = l * (C.x - A.x) - m * (D.x - B.x) := by linarith
  have sy : B.y - A.y = l * (C.y - A.y) - m * (D.y - B.y) := by linarith
  have sz : B.z - A.z = l * (C.z - A.z) - m * (D.z - B.z) := by linarith
  have tx : D.x - A.x = l * (C.x - A.x) + (1 - m) * (D.x - B.x) := by linarith
  have ty : D.y - A.y = l * (C.y - A.y) + (1 - m) * (D.y - B.y) := by linarith
  have tz : D.z - A.z = l * (C.z - A.z) + (1 - m) * (D.z - B.z) := by linarith
  have e1 : Spec.triArea A B C = m * (Real.sqrt q / 2) := by
    unfold Spec.triArea
    have : Spec.inner3 (B.sub A) (B.sub A) * Spec.inner3 (C.sub A) (C.sub A)
        - Spec.inner3 (B.sub A) (C.sub A) ^ 2 = m ^ 2 * q := by
      simp only [hq, Spec.inner3, V3.sub, sub_r, sx, sy, sz]; ring
    rw [this, Real.sqrt_mul (by positivity), Real.sqrt_sq hm]; ring
  have e2 : Spec.triArea A C D = (1 - m) * (Real.sqrt q / 2) := by
    unfold Spec.triArea
    have : Spec.inner3 (C.sub A) (C.sub A) * Spec.inner3 (D.sub A) (D.sub A)
        - Spec.inner3 (C.sub A) (D.sub A) ^ 2 = (1 - m) ^ 2 * q := by
      simp only [hq, Spec.inner3, V3.sub, sub_r, tx, ty, tz]; ring
    rw [this, Real.sqrt_mul (by positivity), Real.sqrt_sq (by linarith)]; ring
  rw [e1, e2]; ring

/-- **C14** (planar convex cells): the area is the sum of the areas of the two triangles of either triangulation. -/
theorem C14_triangles (A B C D : V3 ℝ) (h : Spec.Convex A B C D) :
    pquadCell A B C D = Spec.triArea A B C + Spec.triArea A C D ∧
    pquadCell A B C D = Spec.triArea B C D + Spec.triArea B D A := by
  refine ⟨triangles_diag A B C D h, ?_⟩
  rw [← (C14_nonneg_and_order A B C D).2.1]
  refine triangles_diag B C D A ?_
  obtain ⟨l, m, hl, hl1, hm, hm1, hx, hy, hz⟩ := h
  exact ⟨m, 1 - l, hm, hm1, by linarith, by linarith, by linarith, by linarith, by linarith⟩

/-- The unit square is convex, and its area is 1. -/
example : Spec.Convex ⟨0, 0, 0⟩ ⟨1, 0, 0⟩ ⟨1, 1, 0⟩ ⟨0, 1, 0⟩ ∧
    pquadCell (⟨0, 0, 0⟩ : V3 ℝ) ⟨1, 0, 0⟩ ⟨1, 1, 0⟩ ⟨0, 1, 0⟩ = 1 := by
  refine ⟨⟨1 / 2, 1 / 2, by norm_num, by norm_num, by norm_num, by norm_num, by norm_num, by norm_num,
    by norm_num⟩, ?_⟩
  rw [C14_bretschneider]
  have : (4 : ℝ) * Spec.dist2 ⟨0, 0, 0⟩ ⟨1, 1, 0⟩ * Spec.dist2 ⟨1, 0, 0⟩ ⟨0, 1, 0⟩ -
      (Spec.dist2 ⟨0, 0, 0⟩ ⟨1, 0, 0⟩ + Spec.dist2 ⟨1, 1, 0⟩ ⟨0, 1, 0⟩ - Spec.dist2 ⟨1, 0, 0⟩ ⟨1, 1, 0⟩ -
        Spec.dist2 ⟨0, 0, 0⟩ ⟨0, 1, 0⟩) ^ 2 = 4 ^ 2 := by
    simp only [Spec.dist2]; norm_num
  rw [this, Real.sqrt_sq (by norm_num)]; norm_num

/-- **C14** (bound): on the unit sphere a planar cell area is at most 2. -/
theorem C14_at_most_two (A B C D : V3 ℝ) (hA : Spec.OnSphere A) (hB : Spec.OnSphere B)
    (hC : Spec.OnSphere C) (hD : Spec.OnSphere D) : pquadCell A B C D ≤ 2 := by
  have key : ∀ p q : V3 ℝ, Spec.OnSphere p → Spec.OnSphere q →
      Spec.inner3 (q.sub p) (q.sub p) ≤ 4 ∧ 0 ≤ Spec.inner3 (q.sub p) (q.sub p) := by
    intro p q hp hq
    simp only [Spec.OnSphere, Spec.inner3, V3.sub, sub_r] at *
    constructor
    · nlinarith [sq_nonneg (p.x + q.x), sq_nonneg (p.y + q.y), sq_nonneg (p.z + q.z)]
    · nlinarith [sq_nonneg (q.x - p.x), sq_nonneg (q.y - p.y), sq_nonneg (q.z - p.z)]
  rw [pquad_eq]
  have h1 := key A C hA hC
  have h2 := key B D hB hD
  have : Real.sqrt (Spec.inner3 (C.sub A) (C.sub A) * Spec.inner3 (D.sub B) (D.sub B)
      - Spec.inner3 (C.sub A) (D.sub B) ^ 2) ≤ 4 := by
    rw [Real.sqrt_le_left (by norm_num)]
    nlinarith [sq_nonneg (Spec.inner3 (C.sub A) (D.sub B)),
      mul_le_mul h1.1 h2.1 h2.2 (by norm_num : (0 : ℝ) ≤ 4)]
  linarith

/-- **C14** at array level: every entry of `pquad_uarea` is that area of its four corners. -/
theorem C14_array (c : Mat (V3 ℝ)) (hr : 0 < c.rows) (hc : 0 < c.cols) :
    ∃ u, pquadUarea c = .ok u ∧ u.rows = c.rows - 1 ∧ u.cols = c.cols - 1 ∧
      ∀ i j, i < u.rows → j < u.cols → 0 ≤ u.get i j ∧ u.get i j =
        Real.sqrt (4 * Spec.dist2 (c.get i j) (c.get (i + 1) (j + 1))
            * Spec.dist2 (c.get (i + 1) j) (c.get i (j + 1))
          - (Spec.dist2 (c.get i j) (c.get (i + 1) j) + Spec.dist2 (c.get (i + 1) (j + 1)) (c.get i (j + 1))
            - Spec.dist2 (c.get (i + 1) j) (c.get (i + 1) (j + 1)) - Spec.dist2 (c.get i j) (c.get i (j + 1))) ^ 2) / 4 := by
  obtain ⟨u, e, r, s, v⟩ := quadLoop_spec pquadCell c
  refine ⟨u, ?_, r, s, fun i j hi hj => ?_⟩
  · unfold pquadUarea; rw [if_neg (by omega), e]
  · rw [v i j (by omega) (by omega), ← C14_bretschneider]
    exact ⟨(C14_nonneg_and_order _ _ _ _).1, rfl⟩

/-! ## C15: `squad_uarea` -/

/-- Euclidean space. -/
abbrev E3 := EuclideanSpace ℝ (Fin 3)

noncomputable def Spec.toE (p : V3 ℝ) : E3 := !₂[p.x, p.y, p.z]

/-- Normal of the plane through the origin, `p` and `q`. -/
noncomputable def Spec.normal (p q : V3 ℝ) : E3 :=
  !₂[p.y * q.z - p.z * q.y, p.z * q.x - p.x * q.z, p.x * q.y - p.y * q.x]

/-- Interior angle at `a` of the spherical triangle `abc`: the angle between the planes `(a,b)` and `(a,c)`. -/
noncomputable def Spec.vertexAngle (a b c : V3 ℝ) : ℝ :=
  InnerProductGeometry.angle (Spec.normal a b) (Spec.normal a c)

/-- Spherical excess (area on the unit sphere by Girard's theorem) of triangle `abc`. -/
noncomputable def Spec.excess (a b c : V3 ℝ) : ℝ :=
  Spec.vertexAngle a b c + Spec.vertexAngle b a c + Spec.vertexAngle c a b - π

/-- No two corners coincide or are antipodal. -/
def Spec.NonDeg (a b c : V3 ℝ) : Prop :=
  Spec.inner3 a b ^ 2 ≠ 1 ∧ Spec.inner3 b c ^ 2 ≠ 1 ∧ Spec.inner3 a c ^ 2 ≠ 1

theorem inner_E (p q : Fin 3 → ℝ) : inner ℝ (!₂[p 0, p 1, p 2] : E3) !₂[q 0, q 1, q 2] =
    p 0 * q 0 + p 1 * q 1 + p 2 * q 2 := by
  simp [PiLp.inner_apply, Fin.sum_univ_three, mul_comm]

theorem inner_normal (a b c d : V3 ℝ) : inner ℝ (Spec.normal a b) (Spec.normal c d) =
    Spec.inner3 a c * Spec.inner3 b d - Spec.inner3 a d * Spec.inner3 b c := by
  unfold Spec.normal
  simp [PiLp.inner_apply, Fin.sum_univ_three, Spec.inner3]
  ring

theorem norm_normal (a b : V3 ℝ) (ha : Spec.OnSphere a) (hb : Spec.OnSphere b) :
    ‖Spec.normal a b‖ = Real.sin (Real.arccos (Spec.inner3 a b)) := by
  rw [Real.sin_arccos, norm_eq_sqrt_real_inner, inner_normal, ha, hb]
  congr 1
  have : Spec.inner3 b a = Spec.inner3 a b := by simp only [Spec.inner3]; ring
  rw [this]; ring

theorem inner3_comm (a b : V3 ℝ) : Spec.inner3 a b = Spec.inner3 b a := by
  simp only [Spec.inner3]; ring

/-- The code's angle formula is the angle between planes. -/
theorem angle_formula (a b c : V3 ℝ) (ha : Spec.OnSphere a) (hb : Spec.OnSphere b) (hc : Spec.OnSphere c) :
    Real.arccos ((Spec.inner3 b c - Spec.inner3 a c * Spec.inner3 a b) /
      (Real.sin (Real.arccos (Spec.inner3 a c)) * Real.sin (Real.arccos (Spec.inner3 a b)))) =
    Spec.vertexAngle a b c := by
  unfold Spec.vertexAngle InnerProductGeometry.angle
  rw [inner_normal, norm_normal a b ha hb, norm_normal a c ha hc, ha, inner3_comm b a]
  congr 1
  rw [mul_comm (Real.sin (Real.arccos (Spec.inner3 a c)))]
  congr 1
  ring

theorem vertexAngle_comm (a b c : V3 ℝ) : Spec.vertexAngle a b c = Spec.vertexAngle a c b :=
  InnerProductGeometry.angle_comm _ _

theorem triAngles_eq (a b c : V3 ℝ) (ha : Spec.OnSphere a) (hb : Spec.OnSphere b) (hc : Spec.OnSphere c) :
    triAngles a b c = (Spec.vertexAngle a b c, Spec.vertexAngle b a c, Spec.vertexAngle c a b) := by
  unfold triAngles
  simp only [dot_r, sub_r, mul_r, div_r, Arith.sin, Arith.arccos, Prod.mk.injEq]
  refine ⟨angle_formula a b c ha hb hc, ?_, ?_⟩
  · rw [vertexAngle_comm b a c, ← angle_formula b c a hb hc ha, inner3_comm b a, inner3_comm c a,
      mul_comm (Spec.inner3 b c), mul_comm (Real.sin (Real.arccos (Spec.inner3 b c)))]
  · rw [vertexAngle_comm c a b, ← angle_formula c b a hc hb ha, inner3_comm c a, inner3_comm c b,
      inner3_comm b a]
    congr 2
    · ring
    · ring

/-- **C15** (formula): `squad_uarea`'s cell value is the sum of the spherical excesses of the two triangles
`ABC`, `ACD`. -/
theorem C15_sum_of_excesses (A B C D : V3 ℝ) (hA : Spec.OnSphere A) (hB : Spec.OnSphere B)
    (hC : Spec.OnSphere C) (hD : Spec.OnSphere D)
    (_h1 : Spec.NonDeg A B C) (_h2 : Spec.NonDeg A C D) :
    squadCell A B C D = Spec.excess A B C + Spec.excess A C D := by
  unfold squadCell
  rw [triAngles_eq A B C hA hB hC, triAngles_eq A C D hA hC hD]
  simp only [add_r, sub_r, mul_r, Spec.excess]
  show _ - 2 * π = _
  ring

theorem normal_swap (a b : V3 ℝ) : Spec.normal a b = -Spec.normal b a := by
  unfold Spec.normal
  ext i
  fin_cases i <;> simp <;> ring

/-- The interior angles of a spherical triangle add up to at least `π`: spherical triangle inequality
applied to the polar triangle. -/
theorem excess_nonneg (a b c : V3 ℝ) : 0 ≤ Spec.excess a b c := by
  unfold Spec.excess Spec.vertexAngle
  set u := Spec.normal b c
  set v := Spec.normal c a
  set w := Spec.normal a b
  have h1 : InnerProductGeometry.angle w (Spec.normal a c) = π - InnerProductGeometry.angle w v := by
    rw [normal_swap a c, InnerProductGeometry.angle_neg_right]
  have h2 : InnerProductGeometry.angle (Spec.normal b a) u = π - InnerProductGeometry.angle w u := by
    rw [normal_swap b a, InnerProductGeometry.angle_neg_left]
  have h3 : InnerProductGeometry.angle v (Spec.normal c b) = π - InnerProductGeometry.angle v u := by
    rw [normal_swap c b, InnerProductGeometry.angle_neg_right]
  rw [h1, h2, h3]
  have := InnerProductGeometry.angle_le_angle_add_angle u (-w) v
  rw [InnerProductGeometry.angle_neg_left, InnerProductGeometry.angle_neg_right,
    InnerProductGeometry.angle_comm u w, InnerProductGeometry.angle_comm u v] at this
  linarith

theorem excess_le (a b c : V3 ℝ) : Spec.excess a b c ≤ 2 * π := by
  unfold Spec.excess Spec.vertexAngle
  have := InnerProductGeometry.angle_le_pi (Spec.normal a b) (Spec.normal a c)
  have := InnerProductGeometry.angle_le_pi (Spec.normal b a) (Spec.normal b c)
  have := InnerProductGeometry.angle_le_pi (Spec.normal c a) (Spec.normal c b)
  linarith

/-- **C15** (sign and bound): the cell area is between 0 and the area `4π` of the unit sphere. -/
theorem C15_nonneg (A B C D : V3 ℝ) (hA : Spec.OnSphere A) (hB : Spec.OnSphere B)
    (hC : Spec.OnSphere C) (hD : Spec.OnSphere D)
    (h1 : Spec.NonDeg A B C) (h2 : Spec.NonDeg A C D) :
    0 ≤ squadCell A B C D ∧ squadCell A B C D ≤ 4 * π := by
  rw [C15_sum_of_excesses A B C D hA hB hC hD h1 h2]
  have := excess_nonneg A B C
  have := excess_nonneg A C D
  have := excess_le A B C
  have := excess_le A C D
  constructor <;> linarith

/-- **C15** (rotations): a map preserving scalar products (rotation or reflection of the sphere) leaves the
area unchanged. -/
theorem C15_rotation (T : V3 ℝ → V3 ℝ) (hT : ∀ p q, Spec.inner3 (T p) (T q) = Spec.inner3 p q)
    (A B C D : V3 ℝ) : squadCell (T A) (T B) (T C) (T D) = squadCell A B C D := by
  unfold squadCell triAngles
  simp only [dot_r, hT]

/-- **C15** (which corner is listed first on the chosen diagonal, orientation): `squad(C,D,A,B)` and `squad(A,D,C,B)` give the same value. -/
theorem C15_order (A B C D : V3 ℝ) (hA : Spec.OnSphere A) (hB : Spec.OnSphere B)
    (hC : Spec.OnSphere C) (hD : Spec.OnSphere D)
    (h1 : Spec.NonDeg A B C) (h2 : Spec.NonDeg A C D) :
    squadCell C D A B = squadCell A B C D ∧ squadCell A D C B = squadCell A B C D := by
  have sym : ∀ a b c, Spec.NonDeg a b c → Spec.NonDeg a c b ∧ Spec.NonDeg c a b := by
    intro a b c ⟨x, y, z⟩
    refine ⟨⟨z, by rwa [inner3_comm], x⟩, ⟨by rwa [inner3_comm], x, by rwa [inner3_comm]⟩⟩
  have e1 : ∀ a b c, Spec.excess a b c = Spec.excess c a b := by
    intro a b c; unfold Spec.excess
    rw [vertexAngle_comm a c b, vertexAngle_comm b c a]; ring
  have e2 : ∀ a b c, Spec.excess a b c = Spec.excess a c b := by
    intro a b c; unfold Spec.excess
    rw [vertexAngle_comm a c b]; ring
  constructor
  · have k2 := (sym _ _ _ (sym _ _ _ h2).2).2
    rw [C15_sum_of_excesses C D A B hC hD hA hB k2 (sym _ _ _ h1).2,
      C15_sum_of_excesses A B C D hA hB hC hD h1 h2, ← e1 A B C, e1 C D A]
    rw [e1 A C D, e1 D A C, e1 C D A]; ring
  · rw [C15_sum_of_excesses A D C B hA hD hC hB (sym _ _ _ h2).1 (sym _ _ _ h1).1,
      C15_sum_of_excesses A B C D hA hB hC hD h1 h2, e2 A D C, e2 A C B]; ring

/-- The octant of the sphere split into two triangles: hypotheses of C15 are satisfiable. -/
example : Spec.OnSphere ⟨1, 0, 0⟩ ∧ Spec.OnSphere ⟨0, 1, 0⟩ ∧ Spec.OnSphere ⟨0, 0, 1⟩ ∧
    Spec.OnSphere ⟨3 / 5, 0, 4 / 5⟩ ∧
    Spec.NonDeg ⟨1, 0, 0⟩ ⟨0, 1, 0⟩ ⟨0, 0, 1⟩ ∧ Spec.NonDeg ⟨1, 0, 0⟩ ⟨0, 0, 1⟩ ⟨3 / 5, 0, 4 / 5⟩ := by
  simp only [Spec.OnSphere, Spec.NonDeg, Spec.inner3]; norm_num

/-- **C15** at array level: `squad_uarea` of `lonlat2cart` output has non-negative entries wherever the
corners of the two triangles are pairwise neither coincident nor antipodal. -/
theorem C15_array (lons lats : Mat ℝ) (rad : ℝ) (c : Mat (V3 ℝ))
    (hcart : lonlat2cart lons lats rad = .ok c) (hr : 0 < c.rows) (hc : 0 < c.cols) :
    ∃ u, squadUarea c = .ok u ∧ u.rows = c.rows - 1 ∧ u.cols = c.cols - 1 ∧
      ∀ i j, i < u.rows → j < u.cols →
        Spec.NonDeg (c.get i j) (c.get (i + 1) j) (c.get (i + 1) (j + 1)) →
        Spec.NonDeg (c.get i j) (c.get (i + 1) (j + 1)) (c.get i (j + 1)) →
        u.get i j = Spec.excess (c.get i j) (c.get (i + 1) j) (c.get (i + 1) (j + 1))
          + Spec.excess (c.get i j) (c.get (i + 1) (j + 1)) (c.get i (j + 1)) ∧
        0 ≤ u.get i j := by
  have hs := (C13_unit_norm lons lats rad c hcart).2.2
  obtain ⟨u, e, r, s, v⟩ := quadLoop_spec squadCell c
  refine ⟨u, ?_, r, s, fun i j hi hj h1 h2 => ?_⟩
  · unfold squadUarea; rw [if_neg (by omega), e]
  · rw [v i j (by omega) (by omega)]
    exact ⟨C15_sum_of_excesses _ _ _ _ (hs _ _) (hs _ _) (hs _ _) (hs _ _) h1 h2,
      (C15_nonneg _ _ _ _ (hs _ _) (hs _ _) (hs _ _) (hs _ _) h1 h2).1⟩

end SG
