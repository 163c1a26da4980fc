import Verif.Base.Float
/-!
# IEEE-754 double precision

The number type of the code: numpy's float64 and Python's float.  A double is its bit pattern.  Every finite double is a whole multiple of
`2⁻¹⁰⁷⁴`, so exact sums are integers and exact products and quotients fractions of integers; the operations round the exact result to the nearest
double, ties to the one with an even significand (IEEE-754, 4.3.1 and 5.4.1).

Simplified: every operation that gives a NaN gives the same one (IEEE-754 leaves sign and payload open).  `cos`, `sin`, `arccos` and the order in which
`ndarray.mean` adds are not determined by IEEE-754; they are parameters (`Libm`).
-/

namespace SG

/-- A double. -/
structure Dbl where
  bits : BitVec 64
deriving DecidableEq, Repr

/-- Functions of the C library and of numpy that are not fixed by IEEE-754. -/
class Libm where
  cos : Dbl → Dbl
  sin : Dbl → Dbl
  arccos : Dbl → Dbl
  mean : List Dbl → Dbl

/-! ## Rounding

A number `r ≥ 0` is given by its whole part `fl` and by the comparison of `2 * r` with natural numbers. -/

/-- Binary exponent of the last place of a number with whole part `fl`, if significands have `p` bits and numbers below `2 ^ p` have steps of 1. -/
def ulpExp (p fl : Nat) : Nat := Nat.log2 fl + 1 - p

/-- Rounds up from `q` if the rest is more than half a step, or half a step and `q` is odd; the rest is compared with half a step. -/
def roundQ (q : Nat) : Ordering → Nat
  | .lt => q
  | .eq => if q % 2 = 0 then q else q + 1
  | .gt => q + 1

/-- The multiple of the last place nearest to `r`. -/
def roundTo (p fl : Nat) (cmp : Nat → Ordering) : Nat :=
  let k := ulpExp p fl
  let q := fl / 2 ^ k
  roundQ q (cmp ((2 * q + 1) * 2 ^ k)) * 2 ^ k

/-- Rounds the fraction `a / b`. -/
def roundFrac (p a b : Nat) : Nat := roundTo p (a / b) fun n => compare (2 * a) (n * b)

/-- Largest natural number whose square is at most `n`, by bisection: the answer lies in `lo .. lo + 2 ^ k - 1`. -/
def isqrtAux (n : Nat) : Nat → Nat → Nat
  | 0, lo => lo
  | k + 1, lo => if (lo + 2 ^ k) * (lo + 2 ^ k) ≤ n then isqrtAux n k (lo + 2 ^ k) else isqrtAux n k lo

def isqrt (n : Nat) : Nat := isqrtAux n (Nat.log2 n / 2 + 1) 0

/-- Rounds the square root of `n`. -/
def roundSqrt (p n : Nat) : Nat := roundTo p (isqrt n) fun m => compare (4 * n) (m * m)

namespace Dbl

/-- The three parts of the bit pattern. -/
def neg (x : Dbl) : Bool := decide (2 ^ 63 ≤ x.bits.toNat)
def expo (x : Dbl) : Nat := x.bits.toNat / 2 ^ 52 % 2 ^ 11
def frac (x : Dbl) : Nat := x.bits.toNat % 2 ^ 52

def isNaN (x : Dbl) : Bool := decide (x.expo = 2047 ∧ x.frac ≠ 0)
def isInf (x : Dbl) : Bool := decide (x.expo = 2047 ∧ x.frac = 0)
def isFin (x : Dbl) : Bool := decide (x.expo < 2047)

/-- `|x|` in units of `2⁻¹⁰⁷⁴` (for an infinity: `2¹⁰²⁴`). -/
def mag (x : Dbl) : Nat := if x.expo = 0 then x.frac else (2 ^ 52 + x.frac) * 2 ^ (x.expo - 1)
/-- `x` in units of `2⁻¹⁰⁷⁴`. -/
def int (x : Dbl) : Int := if x.neg then -(x.mag : Int) else x.mag

/-- The double with these parts. -/
def pack (s : Bool) (e f : Nat) : Dbl := ⟨BitVec.ofNat 64 ((if s then 2 ^ 63 else 0) + e * 2 ^ 52 + f)⟩

def nanD : Dbl := pack false 2047 (2 ^ 51)
def infD (s : Bool) : Dbl := pack s 2047 0

/-- The double with sign `s` and absolute value `n * 2⁻¹⁰⁷⁴`, where `n` has at most 53 significant bits; infinity if there is none. -/
def encode (s : Bool) (n : Nat) : Dbl :=
  if n < 2 ^ 52 then pack s 0 n
  else
    let k := Nat.log2 n - 52
    if 2046 ≤ k then infD s else pack s (k + 1) (n / 2 ^ k - 2 ^ 52)

/-- `-x` -/
def opp (x : Dbl) : Dbl := pack (!x.neg) x.expo x.frac

/-- `x + y` -/
def add (x y : Dbl) : Dbl :=
  if x.isNaN || y.isNaN then nanD
  else if x.isInf then if y.isInf && (x.neg != y.neg) then nanD else x
  else if y.isInf then y
  else
    let z := x.int + y.int
    encode (if z = 0 then x.neg && y.neg else decide (z < 0)) (roundFrac 53 z.natAbs 1)

/-- `x - y` -/
def sub (x y : Dbl) : Dbl := if y.isNaN then nanD else add x (opp y)

/-- `x * y` -/
def mul (x y : Dbl) : Dbl :=
  let s := x.neg != y.neg
  if x.isNaN || y.isNaN then nanD
  else if x.isInf || y.isInf then if x.mag = 0 ∨ y.mag = 0 then nanD else infD s
  else encode s (roundFrac 53 (x.mag * y.mag) (2 ^ 1074))

/-- `x / y` -/
def div (x y : Dbl) : Dbl :=
  let s := x.neg != y.neg
  if x.isNaN || y.isNaN then nanD
  else if x.isInf then if y.isInf then nanD else infD s
  else if y.isInf then pack s 0 0
  else if y.mag = 0 then if x.mag = 0 then nanD else infD s
  else encode s (roundFrac 53 (x.mag * 2 ^ 1074) y.mag)

/-- `sqrt(x)` -/
def sqrt (x : Dbl) : Dbl :=
  if x.isNaN then nanD
  else if x.mag = 0 then x
  else if x.neg then nanD
  else if x.isInf then x
  else encode false (roundSqrt 53 (x.mag * 2 ^ 1074))

/-- `x < y`, `x <= y` -/
def lt (x y : Dbl) : Bool := !x.isNaN && !y.isNaN && decide (x.int < y.int)
def le (x y : Dbl) : Bool := !x.isNaN && !y.isNaN && decide (x.int ≤ y.int)

/-- The double nearest to the fraction `a / b`: a literal of the source text. -/
def lit (a b : Nat) : Dbl := encode false (roundFrac 53 (a * 2 ^ 1074) b)

/-- `np.pi` -/
def piD : Dbl := ⟨0x400921FB54442D18#64⟩

end Dbl

/-! ## Single precision

Finite singles are whole multiples of `2⁻¹⁴⁹`, which is `2⁹²⁵` units of doubles. -/

namespace Sgl

def neg (b : BitVec 32) : Bool := decide (2 ^ 31 ≤ b.toNat)
def expo (b : BitVec 32) : Nat := b.toNat / 2 ^ 23 % 2 ^ 8
def frac (b : BitVec 32) : Nat := b.toNat % 2 ^ 23
/-- Absolute value in units of `2⁻¹⁴⁹`. -/
def mag (b : BitVec 32) : Nat := if expo b = 0 then frac b else (2 ^ 23 + frac b) * 2 ^ (expo b - 1)

def pack (s : Bool) (e f : Nat) : BitVec 32 := BitVec.ofNat 32 ((if s then 2 ^ 31 else 0) + e * 2 ^ 23 + f)

/-- The single with sign `s` and absolute value `n * 2⁻¹⁴⁹`, where `n` has at most 24 significant bits; infinity if there is none. -/
def encode (s : Bool) (n : Nat) : BitVec 32 :=
  if n < 2 ^ 23 then pack s 0 n
  else
    let k := Nat.log2 n - 23
    if 254 ≤ k then pack s 255 0 else pack s (k + 1) (n / 2 ^ k - 2 ^ 23)

/-- `x.astype('f4')` -/
def ofDbl (x : Dbl) : BitVec 32 :=
  if x.isNaN then pack false 255 (2 ^ 22)
  else if x.isInf then pack x.neg 255 0
  else encode x.neg (roundFrac 24 x.mag (2 ^ 925))

/-- The double with the same value. -/
def toDbl (b : BitVec 32) : Dbl :=
  if expo b = 255 then if frac b = 0 then Dbl.infD (neg b) else Dbl.nanD
  else Dbl.encode (neg b) (mag b * 2 ^ 925)

end Sgl

instance [Libm] : PyFloat Dbl where
  zero := Dbl.lit 0 1
  half := Dbl.lit 1 2
  two := Dbl.lit 2 1
  pi := Dbl.piD
  add := Dbl.add
  sub := Dbl.sub
  mul := Dbl.mul
  div := Dbl.div
  cos := Libm.cos
  sin := Libm.sin
  arccos := Libm.arccos
  radians x := Dbl.mul x (Dbl.div Dbl.piD (Dbl.lit 180 1))
  sqrt := Dbl.sqrt
  isZero x := decide (x.mag = 0)
  lt := Dbl.lt
  le := Dbl.le
  inf := Dbl.infD false
  nan := Dbl.nanD
  four := Dbl.lit 4 1
  c360 := Dbl.lit 360 1
  c1e10 := Dbl.lit (10 ^ 10) 1
  tol := Dbl.lit 1 (10 ^ 6)
  planar := Dbl.lit 10000 1
  mean := Libm.mean

instance : F64 Dbl := ⟨Dbl.bits, Dbl.mk⟩
instance : LawfulF64 Dbl := ⟨fun _ => rfl, fun _ => rfl⟩

end SG
