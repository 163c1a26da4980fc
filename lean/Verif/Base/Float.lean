import Verif.Base.Py
/-!
# Abstract floating point

The model is polymorphic in the number type `F`.  `Arith` has the arithmetic used by the area formulas,
`PyFloat` adds comparisons and special values.  No laws are part of these classes; laws are
stated separately (`FloatOrder`, `LawfulF64`) and appear as hypotheses only where needed.
-/

namespace SG

/-- Arithmetic on numpy float64 values (elementwise ufuncs). -/
class Arith (F : Type) where
  zero : F
  /-- literal 0.5 -/
  half : F
  /-- literal 2 -/
  two : F
  /-- np.pi -/
  pi : F
  add : F → F → F
  sub : F → F → F
  mul : F → F → F
  div : F → F → F
  cos : F → F
  sin : F → F
  arccos : F → F
  /-- np.radians -/
  radians : F → F
  sqrt : F → F

infixl:65 " +ₚ " => Arith.add
infixl:65 " -ₚ " => Arith.sub
infixl:70 " *ₚ " => Arith.mul
infixl:70 " /ₚ " => Arith.div

/-- Comparisons, special values and the numeric constants of simplegrid. -/
class PyFloat (F : Type) extends Arith F where
  /-- `x == 0.` (`np.PZERO == x`; also true of `-0.`) -/
  isZero : F → Bool
  /-- `x < y` -/
  lt : F → F → Bool
  /-- `x <= y` -/
  le : F → F → Bool
  inf : F
  nan : F
  /-- literal 4. -/
  four : F
  /-- literal 360 -/
  c360 : F
  /-- literal 1.e10 (util.py:68) -/
  c1e10 : F
  /-- config.POINTS_ARE_CLOSE_ENOUGH = 1.e-6 (config.py:9) -/
  tol : F
  /-- config.PLANAR_SPHER_TRANSITION = 10.e3 (config.py:14) -/
  planar : F
  /-- `ndarray.mean()` of a 1-d array -/
  mean : List F → F

/-- Facts about `<` that hold for IEEE-754 doubles, NaN included. -/
class FloatOrder (F : Type) [PyFloat F] : Prop where
  irrefl : ∀ a : F, PyFloat.lt a a = false
  trans : ∀ a b c : F, PyFloat.lt a b = true → PyFloat.lt b c = true → PyFloat.lt a c = true
  le_lt_trans : ∀ a b c : F, PyFloat.le a b = true → PyFloat.lt b c = true → PyFloat.lt a c = true

/-- Further facts about comparisons of doubles: `a <= a` says that `a` is not NaN; two such values are comparable;
infinity is one. -/
class FloatTotal (F : Type) [PyFloat F] : Prop extends FloatOrder F where
  le_self : ∀ a b : F, PyFloat.le a b = true → PyFloat.le a a = true ∧ PyFloat.le b b = true
  lt_le : ∀ a b : F, PyFloat.lt a b = true → PyFloat.le a b = true
  le_trans : ∀ a b c : F, PyFloat.le a b = true → PyFloat.le b c = true → PyFloat.le a c = true
  total : ∀ a b : F, PyFloat.le a a = true → PyFloat.le b b = true → PyFloat.lt a b = false →
    PyFloat.le b a = true
  inf_self : PyFloat.le (PyFloat.inf : F) PyFloat.inf = true

/-- `0. == 0.` -/
class ZeroLaw (F : Type) [PyFloat F] : Prop where
  isZero_zero : PyFloat.isZero (Arith.zero : F) = true

/-- The bits of a double. -/
class F64 (F : Type) where
  toBits : F → BitVec 64
  ofBits : BitVec 64 → F

/-- A double is its bit pattern (numpy stores and byte-swaps without changing it). -/
class LawfulF64 (F : Type) [F64 F] : Prop where
  ofBits_toBits : ∀ x : F, F64.ofBits (F64.toBits x) = x
  toBits_ofBits : ∀ b : BitVec 64, F64.toBits (F64.ofBits b : F) = b

/-- `pyproj.Geod`: an arbitrary geodesic solver.
* `inv lon1 lat1 lon2 lat2` is the distance component of `Geod.inv`;
* `npt lon1 lat1 lon2 lat2 n k` is the `k`-th (zero-based) of the `n` points returned by `Geod.npts`
  (assumed contract: `npts` returns exactly `n` points);
* `a` is `Geod.a`. -/
structure Geod (F : Type) where
  inv : F → F → F → F → F
  npt : F → F → F → F → Nat → Nat → F × F
  a : F

/-! ## A toy number type for concrete examples

64-bit patterns read as integers, one pattern being NaN.  Used only to exhibit concrete
instances of hypotheses and counterexamples; it satisfies all the laws stated above. -/

structure Toy where
  bits : BitVec 64
deriving DecidableEq, Repr

namespace Toy
def nanBits : BitVec 64 := 0x7ff8000000000000#64
def ofInt (z : Int) : Toy := ⟨BitVec.ofInt 64 z⟩
def val (x : Toy) : Int := x.bits.toInt
def isNaN (x : Toy) : Bool := x.bits == nanBits
def op (f : Int → Int → Int) (x y : Toy) : Toy :=
  if x.isNaN || y.isNaN then ⟨nanBits⟩ else ofInt (f x.val y.val)
instance (n : Nat) : OfNat Toy n := ⟨ofInt n⟩
instance : Neg Toy := ⟨fun x => op (fun a _ => -a) x x⟩

instance : PyFloat Toy where
  zero := 0
  half := 1
  two := 2
  pi := 3
  add := op (· + ·)
  sub := op (· - ·)
  mul := op (· * ·)
  div := op (· / ·)
  cos x := x
  sin x := x
  arccos x := x
  radians x := x
  sqrt x := x
  isZero x := x.bits == 0#64
  lt x y := !x.isNaN && !y.isNaN && decide (x.val < y.val)
  le x y := !x.isNaN && !y.isNaN && decide (x.val ≤ y.val)
  inf := ofInt (10^15)
  nan := ⟨nanBits⟩
  four := 4
  c360 := 360
  c1e10 := ofInt (10^10)
  tol := 0
  planar := 10000
  mean l := l.headD 0

instance : FloatOrder Toy where
  irrefl a := by simp [PyFloat.lt]
  trans a b c h1 h2 := by
    simp only [PyFloat.lt, Bool.and_eq_true, decide_eq_true_eq] at *
    exact ⟨⟨h1.1.1, h2.1.2⟩, Int.lt_trans h1.2 h2.2⟩
  le_lt_trans a b c h1 h2 := by
    simp only [PyFloat.lt, PyFloat.le, Bool.and_eq_true, decide_eq_true_eq] at *
    exact ⟨⟨h1.1.1, h2.1.2⟩, Int.lt_of_le_of_lt h1.2 h2.2⟩

instance : FloatTotal Toy where
  le_self a b h := by
    simp only [PyFloat.le, Bool.and_eq_true, decide_eq_true_eq] at *
    exact ⟨⟨⟨h.1.1, h.1.1⟩, Int.le_refl _⟩, ⟨h.1.2, h.1.2⟩, Int.le_refl _⟩
  lt_le a b h := by
    simp only [PyFloat.lt, PyFloat.le, Bool.and_eq_true, decide_eq_true_eq] at *
    exact ⟨h.1, Int.le_of_lt h.2⟩
  le_trans a b c h1 h2 := by
    simp only [PyFloat.le, Bool.and_eq_true, decide_eq_true_eq] at *
    exact ⟨⟨h1.1.1, h2.1.2⟩, Int.le_trans h1.2 h2.2⟩
  total a b h1 h2 h := by
    simp only [PyFloat.lt, PyFloat.le, Bool.and_eq_true, decide_eq_true_eq] at *
    refine ⟨⟨h2.1.1, h1.1.1⟩, ?_⟩
    rw [h1.1.1, h2.1.1] at h
    simp at h
    omega
  inf_self := by decide

instance : ZeroLaw Toy := ⟨by decide⟩
instance : F64 Toy := ⟨Toy.bits, Toy.mk⟩
instance : LawfulF64 Toy := ⟨fun _ => rfl, fun _ => rfl⟩

/-- Manhattan distance and (integer) linear interpolation. -/
def geod : Geod Toy where
  inv lo1 la1 lo2 la2 := op (fun a b => a + b)
    (op (fun a b => ((a - b).natAbs : Int)) lo1 lo2) (op (fun a b => ((a - b).natAbs : Int)) la1 la2)
  npt lo1 la1 lo2 la2 n k :=
    (op (fun a b => a + (b - a) * (k + 1) / (n + 1)) lo1 lo2,
     op (fun a b => a + (b - a) * (k + 1) / (n + 1)) la1 la2)
  a := 1
end Toy

end SG
