import Verif.Base.Text
import Verif.Base.Py
/-! # Command lines: `create_parser` and `parse_args`

The five `create_parser` functions and the part of Python's `argparse` (3.11, `Lib/argparse.py`; not in /repo) they use: options with one
value, flags with a short name, `-h`; no positional arguments.  What `int(text)` and `float(text)` accept is a parameter.

Simplifications: characters that look like digits to `\d` are the ASCII digits; no line feed at the end of an argument;
texts of help and error messages are left out (exit status 2 for a usage error, 0 for help). -/

namespace SG.Cli

/-- What an option takes: `type=float`, `type=int`, neither, `action='store_true'`, `-h`. -/
inductive Kind | float | int | text | flag | help
deriving DecidableEq, Repr

/-- `add_argument([short,]long,...)`; flags have a short name. -/
structure Opt where
  long : Text
  kind : Kind
  required : Bool := false
  short : Option Char := none
deriving DecidableEq, Repr

abbrev Parser := List Opt

/-- A converted value. -/
inductive Val (F : Type)
  | float (x : F) | int (z : Int) | text (t : Text) | true_
deriving DecidableEq, Repr

/-- The namespace: attributes (by long option) that were set. -/
abbrev Ns (F : Type) := Text → Option (Val F)

/-- `parse_args`: a namespace, or the exit status of the process. -/
inductive Parsed (F : Type)
  | ok (ns : Ns F)
  | exit (status : Nat)

/-! ## `argparse` -/

/-- `-h`, `--help`, added by `ArgumentParser`. -/
def helpOpt : Opt := { long := "--help".toList, kind := .help, short := some 'h' }

/-- `_option_string_actions` -/
def optMap (P : Parser) : List (Text × Opt) :=
  (helpOpt :: P).flatMap fun o => (match o.short with | some c => [(['-', c], o)] | none => []) ++ [(o.long, o)]

def lookup (P : Parser) (t : Text) : Option Opt := ((optMap P).find? fun x => x.1 = t).map (·.2)

/-- `str.partition('=')` -/
def partEq (t : Text) : Text × Option Text :=
  (t.takeWhile (· ≠ '='), match t.dropWhile (· ≠ '=') with | [] => none | _ :: e => some e)

/-- `_negative_number_matcher`: `^-\d+$|^-\d*\.\d+$` -/
def negLike (t : Text) : Bool :=
  match t with
  | '-' :: s =>
    (s ≠ [] && s.all Char.isDigit) ||
    (match s.dropWhile Char.isDigit with
      | '.' :: f => f ≠ [] && f.all Char.isDigit
      | _ => false)
  | _ => false

/-- An argument as `_parse_known_args` sees it: `A`, `O` (with an option and the text after `=`, or glued to a short option) or `-`. -/
inductive Tok
  | arg (t : Text)
  | opt (o : Opt) (s : Text) (explicit : Option (Bool × Text))
  | unknown
  | dashes
deriving DecidableEq, Repr

/-- `_get_option_tuples` -/
def candidates (P : Parser) (t : Text) : List Tok :=
  if (t.drop 1).head? = some '-' then
    let p := partEq t
    ((optMap P).filter fun x => p.1.isPrefixOf x.1).map fun x => .opt x.2 x.1 (p.2.map fun e => (true, e))
  else
    (optMap P).filterMap fun x =>
      if x.1 = t.take 2 then some (.opt x.2 x.1 (some (false, t.drop 2)))
      else if t.isPrefixOf x.1 then some (.opt x.2 x.1 none) else none

/-- Lines of `_parse_optional` after the exact matches; `none`: ambiguous. -/
def parseAbbrev (P : Parser) (t : Text) : Option Tok :=
  match candidates P t with
  | [] => some (if negLike t then .arg t else if ' ' ∈ t then .arg t else .unknown)
  | [k] => some k
  | _ => none

/-- `_parse_optional` -/
def parseOptional (P : Parser) (t : Text) : Option Tok :=
  if t.head? ≠ some '-' then some (.arg t)
  else match lookup P t with
    | some o => some (.opt o t none)
    | none =>
      if t.length = 1 then some (.arg t)
      else match (partEq t).2 with
        | none => parseAbbrev P t
        | some e => match lookup P (partEq t).1 with
          | some o => some (.opt o (partEq t).1 (some (true, e)))
          | none => parseAbbrev P t

def classify (P : Parser) : List Text → Option (List Tok)
  | [] => some []
  | t :: ts =>
    if t = ['-', '-'] then some (.dashes :: ts.map .arg)
    else match parseOptional P t with
      | none => none
      | some k => (classify P ts).map (k :: ·)

/-- `_get_value` -/
def convert {F : Type} (pf : Text → Option F) (pi : Text → Option Int) (k : Kind) (t : Text) : Option (Val F) :=
  match k with
  | .float => (pf t).map .float
  | .int => (pi t).map .int
  | _ => some (.text t)

/-- A group of short flags such as `-sv` (`consume_optional`): the flags, and whether unknown letters follow; `none`: error. -/
def cluster (P : Parser) : Opt → Bool → Text → Option (List Opt × Bool)
  | _, _, [] => none
  | o, sep, c :: e =>
    if sep || c = '-' then none
    else match lookup P ['-', c] with
      | none => some ([o], true)
      | some o' =>
        match e with
        | [] => some ([o, o'], false)
        | '=' :: _ => none
        | e => (cluster P o' false e).map fun r => (o :: r.1, r.2)

variable {F : Type}

/-- `setattr(namespace,dest,value)` -/
def Ns.set (ns : Ns F) (o : Opt) (v : Val F) : Ns F := fun n => if n = o.long then some v else ns n

/-- Actions of a group of flags; `none`: help is printed. -/
def takeFlags (ns : Ns F) : List Opt → Option (Ns F)
  | [] => some ns
  | o :: os => if o.kind = .help then none else takeFlags (ns.set o .true_) os

/-- The end of `_parse_known_args` and `parse_args`: required options, left over arguments. -/
def finish (P : Parser) (ns : Ns F) (extras : Bool) : Parsed F :=
  if P.any (fun o => o.required && (ns o.long).isNone) then .exit 2
  else if extras then .exit 2 else .ok ns

/-- The main loop of `_parse_known_args`. -/
def consume (pf : Text → Option F) (pi : Text → Option Int) (P : Parser) : List Tok → Ns F → Bool → Parsed F
  | [], ns, extras => finish P ns extras
  | .arg _ :: ks, ns, _ => consume pf pi P ks ns true
  | .unknown :: ks, ns, _ => consume pf pi P ks ns true
  | .dashes :: ks, ns, _ => consume pf pi P ks ns true
  | .opt o _ none :: ks, ns, extras =>
    match o.kind with
    | .help => .exit 0
    | .flag => consume pf pi P ks (ns.set o .true_) extras
    | k =>
      match ks with
      | .arg t :: ks =>
        match convert pf pi k t with
        | none => .exit 2
        | some v => consume pf pi P ks (ns.set o v) extras
      | _ => .exit 2
  | .opt o s (some (sep, e)) :: ks, ns, extras =>
    if o.kind = .help ∨ o.kind = .flag then
      if (s.drop 1).head? = some '-' then .exit 2
      else match cluster P o sep e with
        | none => .exit 2
        | some (os, more) =>
          match takeFlags ns os with
          | none => .exit 0
          | some ns => consume pf pi P ks ns (extras || more)
    else match convert pf pi o.kind e with
      | none => .exit 2
      | some v => consume pf pi P ks (ns.set o v) extras

/-- `parser.parse_args()` with the arguments of the process. -/
def parseArgs (pf : Text → Option F) (pi : Text → Option Int) (P : Parser) (args : List Text) : Parsed F :=
  match classify P args with
  | none => .exit 2
  | some ks => consume pf pi P ks (fun _ => none) false

/-! ## The parsers -/

def strictOpt : Opt := { long := "--strict".toList, kind := .flag, short := some 's' }
def verboseOpt : Opt := { long := "--verbose".toList, kind := .flag, short := some 'v' }

/-- mkgrid.py:12-42 -/
def mkgridParser : Parser :=
  [{ long := "--lon1".toList, kind := .float }, { long := "--lat1".toList, kind := .float },
   { long := "--lon2".toList, kind := .float }, { long := "--lat2".toList, kind := .float },
   { long := "--lon_subscale".toList, kind := .int }, { long := "--lat_subscale".toList, kind := .int },
   { long := "--outfile".toList, kind := .text }, verboseOpt]

/-- regrid.py:14-63 -/
def regridParser : Parser :=
  [{ long := "--mitgridfile".toList, kind := .text }, { long := "--xg_file".toList, kind := .text },
   { long := "--yg_file".toList, kind := .text },
   { long := "--ni".toList, kind := .int, required := true }, { long := "--nj".toList, kind := .int, required := true },
   { long := "--lon1".toList, kind := .float, required := true }, { long := "--lat1".toList, kind := .float, required := true },
   { long := "--lon2".toList, kind := .float, required := true }, { long := "--lat2".toList, kind := .float, required := true },
   { long := "--lon_subscale".toList, kind := .int, required := true }, { long := "--lat_subscale".toList, kind := .int, required := true },
   { long := "--outfile".toList, kind := .text, required := true }, strictOpt, verboseOpt]

/-- addfringe.py:13-43, stitch.py:12-42 -/
def twoTilesParser : Parser :=
  [{ long := "--tilea".toList, kind := .text, required := true }, { long := "--nia".toList, kind := .int, required := true },
   { long := "--nja".toList, kind := .int, required := true }, { long := "--tileb".toList, kind := .text, required := true },
   { long := "--nib".toList, kind := .int, required := true }, { long := "--njb".toList, kind := .int, required := true },
   { long := "--outfile".toList, kind := .text, required := true }, strictOpt, verboseOpt]

/-- getobcs.py:19-63 -/
def getobcsParser : Parser :=
  [{ long := "--parent_mitgridfile".toList, kind := .text, required := true },
   { long := "--ni_parent".toList, kind := .int, required := true }, { long := "--nj_parent".toList, kind := .int, required := true },
   { long := "--regional_mitgridfile".toList, kind := .text, required := true },
   { long := "--ni_regional".toList, kind := .int, required := true }, { long := "--nj_regional".toList, kind := .int, required := true },
   { long := "--parent_resultsdir".toList, kind := .text, required := true },
   { long := "--OB_Jnorth".toList, kind := .int }, { long := "--OB_Jsouth".toList, kind := .int },
   { long := "--OB_Ieast".toList, kind := .int }, { long := "--OB_Iwest".toList, kind := .int },
   { long := "--resultsdir".toList, kind := .text, required := true }, strictOpt, verboseOpt]

end SG.Cli
