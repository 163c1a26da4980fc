import Verif.Base.Float
import Verif.Base.Text
/-! # `mds.py`: meta files

Text is a list of characters.  `pf` is Python's `float(str)` and `fe` the text of `'{:.12E}'.format(x)`, both arbitrary functions here.
Simplifications: `\w` and `int()` know ASCII only and `int()` no underscores or surrounding white space; file names, not open files, are
parsed; the text of `_currentline` in messages is not modelled; `ParseError` is a `ValueError`. -/

namespace SG
variable {F : Type}

/-! ## Strings -/

/-- `str.isspace()` for one character; also `\s` of `re`. -/
def isPySpace (c : Char) : Bool :=
  let n := c.toNat
  (9 ≤ n && n ≤ 13) || (28 ≤ n && n ≤ 32) || n == 0x85 || n == 0xa0 || n == 0x1680 || (0x2000 ≤ n && n ≤ 0x200a) ||
    n == 0x2028 || n == 0x2029 || n == 0x202f || n == 0x205f || n == 0x3000

/-- `s.lstrip(chars)` -/
def lstrip (p : Char → Bool) (s : Text) : Text := s.dropWhile p
/-- `s.rstrip(chars)` -/
def rstrip (p : Char → Bool) (s : Text) : Text := (s.reverse.dropWhile p).reverse
/-- `s.strip(chars)` -/
def strip (p : Char → Bool) (s : Text) : Text := rstrip p (lstrip p s)

def isBlank (c : Char) : Bool := c == ' '
def isQuote (c : Char) : Bool := c == '\''
def isBlankComma (c : Char) : Bool := c == ' ' || c == ','

/-- `'{:<w}d'`, `'{:wd}'`: padding with spaces on the left. -/
def padLeft (w : Nat) (s : Text) : Text := List.replicate (w - s.length) ' ' ++ s
/-- `'{:<ws}'` -/
def padRight (w : Nat) (s : Text) : Text := s ++ List.replicate (w - s.length) ' '
/-- `'{:0wd}'` for a natural number -/
def padZero (w : Nat) (s : Text) : Text := List.replicate (w - s.length) '0' ++ s

/-- The lines of a text file, each with its newline, as iteration over an open file gives them. -/
def linesOf : Text → List Text
  | [] => []
  | c :: t =>
    if c = '\n' then [c] :: linesOf t
    else match linesOf t with
      | [] => [[c]]
      | l :: ls => (c :: l) :: ls

/-! ## Comments -/

/-- Is there an end of a string with delimiter `q`?  `(?:\\.|[^\\q])*q` (mds.py:36). -/
def closesStr (q : Char) : Text → Bool
  | [] => false
  | c :: t =>
    if c = q then true
    else if c = '\\' then
      match t with
      | [] => false
      | _ :: t => closesStr q t
    else closesStr q t

/-- Is there an end of a block comment? -/
def closesBlock : Text → Bool
  | [] => false
  | '*' :: '/' :: _ => true
  | _ :: t => closesBlock t

/-- Where a scan is: in normal text, in a string, after a backslash in a string, in a `//` comment, at the `*` that begins a block comment,
inside one, at the `/` that ends it. -/
inductive CMode | normal | str (q : Char) | esc (q : Char) | line | opening | block | closing

/-- `strip_comments` (mds.py:35-49) as a left-to-right scan: the regular expression's alternatives are tried at each position of
normal text; strings are copied. -/
def stripGo : CMode → Text → Text
  | _, [] => []
  | .normal, c :: t =>
    if c = '/' ∧ t.head? = some '/' then stripGo .line t
    else if c = '/' ∧ t.head? = some '*' ∧ closesBlock (t.drop 1) then stripGo .opening t
    else if (c = '\'' ∨ c = '"') ∧ closesStr c t then c :: stripGo (.str c) t
    else c :: stripGo .normal t
  | .str q, c :: t =>
    if c = q then c :: stripGo .normal t
    else if c = '\\' then c :: stripGo (.esc q) t
    else c :: stripGo (.str q) t
  | .esc q, c :: t => c :: stripGo (.str q) t
  | .line, c :: t => if c = '\n' then c :: stripGo .normal t else stripGo .line t
  | .opening, _ :: t => stripGo .block t
  | .block, c :: t => if c = '*' ∧ t.head? = some '/' then stripGo .closing t else stripGo .block t
  | .closing, _ :: t => stripGo .normal t

def stripComments (s : Text) : Text := stripGo .normal s

/-! ## Values -/

/-- One item of a meta file entry. -/
inductive Val (F : Type)
  | int (z : Int)
  | flt (x : F)
  | str (s : Text)
deriving DecidableEq, Repr

/-- Decimal digits with an optional sign. -/
def intOfText (s : Text) : Option Int :=
  let digits (t : Text) : Option Nat := if t ≠ [] ∧ t.all Char.isDigit then some (textVal t) else none
  match s with
  | '-' :: t => (digits t).map fun n => -(n : Int)
  | '+' :: t => (digits t).map Int.ofNat
  | t => (digits t).map Int.ofNat

/-- `re.sub(r"''","'",s)` (mds.py:60) -/
def unquote : Text → Text
  | '\'' :: '\'' :: t => '\'' :: unquote t
  | c :: t => c :: unquote t
  | [] => []

/-- `parse1(s)` (mds.py:52-69). -/
def parse1 (pf : Text → Py F) (s : Text) : Py (Val F) :=
  if s.head? = some '\'' ∧ 2 ≤ s.length ∧ s.getLast? = some '\'' then
    .ok (.str (unquote ((s.drop 1).dropLast)))
  else if s.any (fun c => c = '.' || c = 'e' || c = 'E') then (pf s).map .flt
  else match intOfText s with
    | some z => .ok (.int z)
    | none => .error .valueError

/-- `re.split(r'[, ] *',line)` (mds.py:126); `skip`: in the spaces of a separator. -/
def splitGo : Bool → Text → Text → List Text
  | _, cur, [] => [cur]
  | skip, cur, c :: t =>
    if skip ∧ c = ' ' then splitGo true cur t
    else if c = ',' ∨ c = ' ' then cur :: splitGo true [] t
    else splitGo false (cur ++ [c]) t

def splitCS (s : Text) : List Text := splitGo false [] s

/-- Do spaces and a quote follow (the rest of the separator `'  *'`)? -/
def isQSep (t : Text) : Bool :=
  t.head? = some ' ' && (t.dropWhile isBlank).head? = some '\''

/-- `re.split(r"'  *'", s)` (mds.py:129); `skip`: inside a separator. -/
def splitQGo : Bool → Text → Text → List Text
  | _, cur, [] => [cur]
  | true, cur, c :: t => if c = '\'' then splitQGo false cur t else splitQGo true cur t
  | false, cur, c :: t =>
    if c = '\'' ∧ isQSep t then cur :: splitQGo true [] t
    else splitQGo false (cur ++ [c]) t

def splitQ (s : Text) : List Text := splitQGo false [] s

/-! ## `parsemeta` -/

/-- The dictionary of a meta file (at most one entry per key). -/
abbrev Dict (F : Type) := List (Text × List (Val F))

def Dict.get (d : Dict F) (k : Text) : Option (List (Val F)) := (d.find? fun e => e.1 = k).map (·.2)
def Dict.del (d : Dict F) (k : Text) : Dict F := d.filter fun e => e.1 ≠ k
def Dict.put (d : Dict F) (k : Text) (v : List (Val F)) : Dict F := d.del k ++ [(k, v)]

def isWord (c : Char) : Bool := c.isAlphanum || c == '_'

/-- The trailing newline of a line, if any, removed. -/
def chomp (s : Text) : Text := if s.getLast? = some '\n' then s.dropLast else s

/-- `re.match(r' *(\w*) *= *(.*?) *$', line)` (mds.py:94): the two groups. -/
def matchEntry (line : Text) : Option (Text × Text) :=
  let l := line.dropWhile isBlank
  match (l.dropWhile isWord).dropWhile isBlank with
  | '=' :: r =>
    let v := chomp (r.dropWhile isBlank)
    if '\n' ∈ v then none else some (l.takeWhile isWord, rstrip isBlank v)
  | _ => none

/-- `_closing` (mds.py:72-74). -/
def closingOf (c : Char) : Option Char :=
  if c = '[' then some ']' else if c = '{' then some '}' else none

/-- The end of an entry (mds.py:116-129): its values. -/
def finishEntry (pf : Text → Py F) (closing : Char) (line : Text) : Py (List (Val F)) :=
  if line.drop (line.length - 2) ≠ [closing, ';'] then .error .valueError
  else
    let inner := strip isBlankComma ((line.take (line.length - 2)).drop 1)
    if closing = ']' then (splitCS inner).mapM (parse1 pf)
    else .ok ((splitQ (strip isQuote inner)).map fun s => .str (rstrip isPySpace s))

/-- `parsemeta` (mds.py:87-133).  `st` is the entry being read, if any: key, closing delimiter, text so far. -/
def parseGo (pf : Text → Py F) : Option (Text × Char × Text) → Dict F → List Text → Py (Dict F)
  | none, d, [] => .ok d
  | some _, _, [] => .error .valueError                              -- 111-112
  | none, d, l :: ls =>
    let line := stripComments l                                      -- 89
    if line.all isPySpace then parseGo pf none d ls                  -- 91-92
    else match matchEntry line with                                  -- 94-98
      | none => .error .valueError
      | some (key, v) =>
        match v with
        | [] => .error .indexError                                   -- 101
        | c :: _ =>
          match closingOf c with
          | none => .error .valueError                               -- 102-105
          | some cl =>
            if cl ∈ v then do
              let vals ← finishEntry pf cl v
              parseGo pf none (d.put key vals) ls
            else parseGo pf (some (key, cl, v)) d ls
  | some (key, cl, v), d, l :: ls =>
    let v' := v ++ ' ' :: rstrip isPySpace (stripComments l)         -- 114
    if cl ∈ v' then do
      let vals ← finishEntry pf cl v'
      parseGo pf none (d.put key vals) ls
    else parseGo pf (some (key, cl, v')) d ls

def parsemeta (pf : Text → Py F) (text : Text) : Py (Dict F) := parseGo pf none [] (linesOf text)

/-! ## `readmeta` -/

/-- Every third element, from the `k`-th. -/
def every3 {α : Type} : Nat → List α → List α
  | _, [] => []
  | 0, a :: l => a :: every3 2 l
  | k + 1, _ :: l => every3 k l

/-- A list of ints; other items raise `TypeError` where they are used. -/
def asInts (l : List (Val F)) : Py (List Int) := l.mapM fun
  | .int z => .ok z
  | _ => .error .typeError

/-- What `readmeta` returns (without time information): global dimensions, tile bounds, the `map2glob` entry, the other entries. -/
structure TileMeta (F : Type) where
  gdims : List Int
  i0s : List Int
  ies : List Int
  m2g : Option (List (Val F))
  rest : Dict F

/-- `readmeta` (mds.py:173-187). -/
def readmeta (pf : Text → Py F) (text : Text) : Py (TileMeta F) := do
  let d ← parsemeta pf text
  match d.get "dimList".toList with
  | none => .error .keyError
  | some l => do
    let dims ← asInts l
    let r := dims.reverse
    let gdims := every3 2 r
    let rest := ((((d.del "dimList".toList).del "timeInterval".toList).del "timeStepNumber".toList).del "map2glob".toList)
    return ⟨gdims, (every3 1 r).map (· - 1), every3 0 r, d.get "map2glob".toList,
      rest.put "dimList".toList (gdims.reverse.map .int)⟩

/-! ## Writing meta files -/

/-- `dataprec` -/
inductive Prec | f32 | f64
deriving DecidableEq, Repr

def Prec.text : Prec → Text
  | .f32 => "float32".toList
  | .f64 => "float64".toList

/-- What goes into a meta file. -/
structure MetaArgs (F : Type) where
  ndims : Nat
  /-- sizes, fastest first -/
  dims : List Nat
  prec : Prec
  nrec : Nat
  itr : Option Nat
  times : Option (List F)
  fields : Option (List Text)
  simulation : Option Text

/-- `sep.join(l)` -/
def joinText (sep : Text) : List Text → Text
  | [] => []
  | [a] => a
  | a :: l => a ++ sep ++ joinText sep l

/-- One `dimList` row (mds.py:569-574, 577). -/
def dimRow (w d : Nat) : Text := padLeft w (natText d) ++ ',' :: padLeft w (natText 1) ++ ',' :: padLeft w (natText d)

/-- Lines 569-572. -/
def dimWidth (dims : List Nat) : Nat := if dims.all (· < 10000) then 5 else 10

/-- Lines 594-602. -/
def fieldsText (fields : List Text) : Text :=
  " nFlds = [ ".toList ++ padLeft 4 (natText fields.length) ++ " ];\n".toList ++ " fldList = {\n".toList ++
  ((List.range ((fields.length + 19) / 20)).flatMap fun row =>
    (((fields.drop (20 * row)).take 20).flatMap fun f => " '".toList ++ padRight 8 f ++ ['\'']) ++ ['\n']) ++
  " };\n".toList

/-- The text of a meta file (mds.py:563-602) for non-empty `dims`. -/
def metaText (fe : F → Text) (a : MetaArgs F) : Text :=
  (match a.simulation with
    | none => []
    | some s => " simulation = { '".toList ++ s ++ "' };\n".toList) ++
  (" nDims = [ ".toList ++ padLeft 3 (natText a.ndims) ++ " ];\n".toList) ++
  (" dimList = [\n ".toList ++ joinText ",\n ".toList (a.dims.map (dimRow (dimWidth a.dims))) ++ "\n ];\n".toList) ++
  (" dataprec = [ '".toList ++ a.prec.text ++ "' ];\n".toList) ++
  (" nrecords = [ ".toList ++ padLeft 5 (natText a.nrec) ++ " ];\n".toList) ++
  (match a.itr with
    | none => []
    | some n => " timeStepNumber = [ ".toList ++ padLeft 10 (natText n) ++ " ];\n".toList) ++
  (match a.times with
    | none => []
    | some ts => " timeInterval = [".toList ++ (ts.flatMap fun t => padLeft 20 (fe t)) ++ " ];\n".toList) ++
  (match a.fields with
    | none => []
    | some fs => fieldsText fs)

end SG
