import Verif.Model.MdsData
/-! # `mds.py`: shell wildcards in the name given to `rdmds`

`glob.glob` and `fnmatch` of the Python library as `rdmds` and `scanforfiles` use them.  Here the names of an `MdsDir` are paths with `/`, in the order in
which `glob` visits them.

Simplifications: `.` and `..` are not interpreted as directories, paths have no empty components, `**` is not special (as in the code, which does not
ask for it); `usememmap` and `returnmeta` are not repeated here. -/

namespace SG
variable {F : Type}

/-! ## Patterns -/

/-- An item of a shell pattern: a character, `?`, `*`, or `[...]` (ranges; negated or not). -/
inductive Pat
  | lit (c : Char) | any | star | cls (neg : Bool) (rs : List (Char × Char))
deriving DecidableEq, Repr

/-- The ranges of `[...]` (`fnmatch.translate`). -/
def clsRanges : Text → List (Char × Char)
  | a :: '-' :: b :: s => (a, b) :: clsRanges s
  | a :: s => (a, a) :: clsRanges s
  | [] => []

/-- What is between `[` and its `]`, and what follows; `]` as the first character, also after `!`, does not close (`fnmatch.translate`). -/
def closing (s : Text) : Option (Text × Text) :=
  let (p, s) := match s with
    | '!' :: s => (['!'], s)
    | s => ([], s)
  let (q, s) := match s with
    | ']' :: s => ([']'], s)
    | s => ([], s)
  match s.dropWhile (· ≠ ']') with
  | _ :: r => some (p ++ q ++ s.takeWhile (· ≠ ']'), r)
  | [] => none

/-- `fnmatch.translate`; the first argument is at least the length of the text. -/
def parsePat : Nat → Text → List Pat
  | 0, _ => []
  | _ + 1, [] => []
  | f + 1, '*' :: s => .star :: parsePat f s
  | f + 1, '?' :: s => .any :: parsePat f s
  | f + 1, '[' :: s => match closing s with
    | none => .lit '[' :: parsePat f s
    | some ('!' :: b, r) => .cls true (clsRanges b) :: parsePat f r
    | some (b, r) => .cls false (clsRanges b) :: parsePat f r
  | f + 1, c :: s => .lit c :: parsePat f s

/-- All ends of a text. -/
def ends : Text → List Text
  | [] => [[]]
  | c :: s => (c :: s) :: ends s

/-- `re.match` of the translated pattern. -/
def patMatch : List Pat → Text → Bool
  | [], s => s.isEmpty
  | .lit c :: p, s => match s with
    | [] => false
    | x :: s => c = x && patMatch p s
  | .any :: p, s => match s with
    | [] => false
    | _ :: s => patMatch p s
  | .cls neg rs :: p, s => match s with
    | [] => false
    | x :: s => (neg != rs.any fun r => r.1 ≤ x && x ≤ r.2) && patMatch p s
  | .star :: p, s => (ends s).any (patMatch p)

/-- A name in a directory against one component of a pattern: names with a dot at the beginning are matched by patterns with a dot at the beginning only
(`glob._glob1`). -/
def compMatch (p n : Text) : Bool := (n.head? != some '.' || p.head? = some '.') && patMatch (parsePat p.length p) n

/-- The parts between slashes. -/
def comps : Text → List Text
  | [] => [[]]
  | c :: s => if c = '/' then [] :: comps s else
    match comps s with
    | w :: ws => (c :: w) :: ws
    | [] => [[c]]

/-- `glob.glob` goes through a path directory by directory. -/
def pathMatch (p n : Text) : Bool :=
  let ps := comps p
  let ns := comps n
  ps.length = ns.length && (ps.zip ns).all fun x => compMatch x.1 x.2

/-! ## `rdmds` -/

/-- `glob.glob(pat)` -/
def MdsDir.globbed (d : MdsDir) (pat : Text) : List Text := d.names.filter (pathMatch pat)

/-- `k*'[0-9]'` -/
def digitPat (k : Nat) : Text := (List.replicate k "[0-9]".toList).flatten

/-- `glob.glob(fname + 2*('.'+3*'[0-9]') + '.meta') or glob.glob(fname+'.meta')` (mds.py:329) -/
def MdsDir.metafilesG (d : MdsDir) (fname : Text) : List Text :=
  let tiles := d.globbed (fname ++ ('.' :: digitPat 3 ++ ('.' :: digitPat 3 ++ ".meta".toList)))
  if tiles ≠ [] then tiles else d.globbed (fname ++ ".meta".toList)

/-- `int(s[off-10:off])` for the names found (mds.py:161-169). -/
def MdsDir.itrsWithG (d : MdsDir) (fname suffix : Text) : List Nat :=
  (d.globbed (fname ++ ('.' :: digitPat 10 ++ suffix))).map fun n => textVal ((n.take (n.length - suffix.length)).drop (n.length - suffix.length - 10))

/-- `scanforfiles(fname)` (mds.py:158-171) -/
def MdsDir.scanG (d : MdsDir) (fname : Text) : List Nat :=
  let tiled := d.itrsWithG fname ".001.001.meta".toList
  sortNat (if tiled = [] then d.itrsWithG fname ".meta".toList else tiled)

/-- The iterations (mds.py:273-296). -/
def itrsOfG (d : MdsDir) (fname : Text) : Itrs → List (Option Nat)
  | .noItr => [none]
  | .one n => [some n]
  | .many l => l.map some
  | .all => (d.scanG fname).map some
  | .last => ((d.scanG fname).drop ((d.scanG fname).length - 1)).map some

/-- One iteration (mds.py:323-443). -/
def itrStepG [PyFloat F] [F64 F] [F32 F] (pf : Text → Py F) (d : MdsDir) (fname : Text) (args : RdArgs F) (nit : Nat)
    (st : Option (RdState F)) (x : Option Nat × Nat) : Py (Option (RdState F)) :=
  let name := match x.1 with
    | none => fname
    | some n => fname ++ itrText n
  match d.metafilesG name with
  | [] => .error .ioError
  | files => files.foldlM (tileStep pf d args nit x.2) st

/-- `rdmds` with a name that may contain wildcards (mds.py:201-479). -/
def rdmdsG [PyFloat F] [F64 F] [F32 F] (pf : Text → Py F) (d : MdsDir) (fname : Text) (args : RdArgs F) : Py (NdArr F) := do
  let itrs := itrsOfG d fname args.itrs
  match ← itrs.zipIdx.foldlM (itrStepG pf d fname args itrs.length) none with
  | none => return ⟨[0], fun _ => Arith.zero⟩
  | some st =>
    let dims := itrs.length :: st.recs.length :: args.lev.map fun l => l.list.length
    st.arr.reshape Arith.zero (squeezed args dims ++ st.arr.shape.drop (2 + args.lev.length))

end SG
