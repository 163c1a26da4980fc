import Verif.Base.Ieee
import Verif.Model.MdsWrite
/-! # `mds.py`: times as doubles

What the interpreter does with the times of `wrmds` and `rdmds`: `int(times[-1]//deltat)` (mds.py:554), `deltat*itr` (mds.py:556),
`"{:20.12E}".format(t)` (mds.py:590) and `float(s)` (mds.py:64).  None of this is code of the repository; it is CPython's `floatobject.c` and
`dtoa.c`, both of which give correctly rounded decimals.  Simplified: `float()` knows ASCII digits only and no underscores; `deltat*itr` with an `itr` of more
than 1023 bits is an infinity here and an `OverflowError` there. -/

set_option exponentiation.threshold 5000

namespace SG
namespace Dbl

/-! ## Division -/

/-- `fmod(x, y)`: the exact remainder, with the sign of `x`. -/
def fmod (x y : Dbl) : Dbl :=
  if x.isNaN || y.isNaN || x.isInf || decide (y.mag = 0) then nanD
  else if y.isInf then x
  else encode x.neg (x.mag % y.mag)

/-- `floor(x)` -/
def floor (x : Dbl) : Dbl :=
  if x.isNaN then nanD
  else if x.isInf then x
  else encode x.neg ((x.int / 2 ^ 1074).natAbs * 2 ^ 1074)

/-- `x//y` of floats: `float_floor_div` and `_float_div_mod` of CPython's `floatobject.c`. -/
def floorDiv (x y : Dbl) : Py Dbl :=
  if y.mag = 0 then .error .zeroDivisionError
  else
    let mod := fmod x y
    let div := Dbl.div (sub x mod) y
    let div := if mod.mag ≠ 0 ∧ y.neg ≠ mod.neg then sub div (lit 1 1) else div
    .ok (if div.mag = 0 then encode (x.neg != y.neg) 0
      else
        let fl := floor div
        if lt (lit 1 2) (sub div fl) then add fl (lit 1 1) else fl)

/-- `int(x)`: towards zero. -/
def toInt (x : Dbl) : Py Int :=
  if x.isNaN then .error .valueError
  else if x.isInf then .error .overflowError
  else .ok (x.int.tdiv (2 ^ 1074))

/-- The float nearest to a whole number. -/
def ofInt (n : Int) : Dbl := encode (decide (n < 0)) (roundFrac 53 (n.natAbs * 2 ^ 1074) 1)

/-- The arithmetic of mds.py:554 and 556 with floats. -/
def timeArith : TimeArith Dbl := ⟨fun t dt => do toInt (← floorDiv t dt), fun dt n => mul dt (ofInt n)⟩

/-! ## Decimals -/

/-- Whole part of the decimal logarithm of `n`. -/
def log10Go : Nat → Nat → Nat
  | 0, _ => 0
  | k + 1, n => if n < 10 then 0 else log10Go k (n / 10) + 1

def log10 (n : Nat) : Nat := log10Go (Nat.log2 n + 1) n

/-- The whole number nearest to `a / b`, ties to the even one. -/
def roundNat (a b : Nat) : Nat := roundQ (a / b) (compare (2 * (a % b)) b)

/-- `(q, L)` such that `q * 10 ^ (L - 412)` is the decimal with 13 digits nearest to `m * 2⁻¹⁰⁷⁴`, ties to the even one. -/
def decimal (m : Nat) : Nat × Nat :=
  if m = 0 then (0, 400)
  else
    let L := log10 (m * 10 ^ 400 / 2 ^ 1074)
    let q := roundNat (m * 10 ^ 400) (2 ^ 1074 * 10 ^ (L - 12))
    if q = 10 ^ 13 then (10 ^ 12, L + 1) else (q, L)

def signText (s : Bool) : Text := if s then ['-'] else []

/-- Digits, a dot after the first one. -/
def dotted : Text → Text
  | [] => ['.']
  | c :: t => c :: '.' :: t

/-- Exponent `L - 400` with a sign and at least two digits. -/
def expText (L : Nat) : Text :=
  if L < 400 then '-' :: padZero 2 (natText (400 - L)) else '+' :: padZero 2 (natText (L - 400))

/-- `'{:.12E}'.format(x)` (mds.py:590; the width 20 is in `metaText`). -/
def text (x : Dbl) : Text :=
  if x.isNaN then "NAN".toList
  else if x.isInf then signText x.neg ++ "INF".toList
  else
    let d := decimal x.mag
    signText x.neg ++ dotted (padZero 13 (natText d.1)) ++ 'E' :: expText d.2

/-- Digits with a dot and an exponent: the number without the dot and the power of ten. -/
def decimalOfText (t : Text) : Option (Nat × Int) :=
  let ip := t.takeWhile Char.isDigit
  let r := t.dropWhile Char.isDigit
  let fp := if r.head? = some '.' then r.tail.takeWhile Char.isDigit else []
  let r := if r.head? = some '.' then r.tail.dropWhile Char.isDigit else r
  if ip = [] ∧ fp = [] then none
  else match r with
    | [] => some (textVal (ip ++ fp), -(fp.length : Int))
    | c :: r =>
      if c = 'e' ∨ c = 'E' then (intOfText r).map fun x => (textVal (ip ++ fp), x - fp.length)
      else none

/-- The double nearest to `D * 10 ^ x`. -/
def ofDecimal (s : Bool) (D : Nat) (x : Int) : Dbl :=
  encode s (roundFrac 53 (D * 10 ^ x.toNat * 2 ^ 1074) (10 ^ (-x).toNat))

/-- `float(s)` (mds.py:64). -/
def ofText (s : Text) : Py Dbl :=
  let u := strip isPySpace s
  let neg := decide (u.head? = some '-')
  let u := if u.head? = some '-' ∨ u.head? = some '+' then u.tail else u
  let low := u.map Char.toLower
  if low = "inf".toList ∨ low = "infinity".toList then .ok (infD neg)
  else if low = "nan".toList then .ok nanD
  else match decimalOfText u with
    | none => .error .valueError
    | some (D, x) => .ok (ofDecimal neg D x)

end Dbl
end SG
