import Verif.Model.MdsMore
/-! # `mds.py`: all of `wrmds`, with the directory it leaves also when it raises

`Model.MdsData.wrmds` says what a successful call writes for an iteration number that is not negative.  Here are also negative iteration
numbers, `deltat`, `dimlist`, and the order in which checks and writing happen.

Simplifications: the argument types are right (`times` a list of numbers, `fields` a list of texts, ...); a scalar `times` is a list of
one number (lines 546-550); `ndims` and `nrecords` are not negative; all files can be opened for writing; the warnings on standard error
are left out. -/

namespace SG
variable {F : Type}

/-- The arguments of `wrmds` after `fbase` and `arr` (mds.py:482-484). -/
structure WrFull (F : Type) where
  itr : Option Int := none
  prec : Prec := .f32
  ndims : Option Nat := none
  nrecords : Option Nat := none
  times : Option (List F) := none
  fields : Option (List Text) := none
  simulation : Option Text := none
  endian : Endian := .big
  deltat : Option F := none
  dimlist : Option (List Int) := none

/-- The arithmetic of lines 554 and 556. -/
structure TimeArith (F : Type) where
  /-- `int(t//dt)` -/
  itrOf : F → F → Py Int
  /-- `dt*n` -/
  timeOf : F → Int → F

/-- `'.{:010d}'.format(z)` (mds.py:561); the sign counts as one of the ten characters. -/
def itrTextZ : Int → Text
  | .ofNat n => itrText n
  | .negSucc n => '.' :: '-' :: padZero 9 (natText (n + 1))

/-- `str(z)` -/
def intText : Int → Text
  | .ofNat n => natText n
  | .negSucc n => '-' :: natText (n + 1)

/-- The first lines of a meta file (mds.py:564-567). -/
def metaHead (simulation : Option Text) (ndims : Nat) : Text :=
  (match simulation with
    | none => []
    | some s => " simulation = { '".toList ++ s ++ "' };\n".toList) ++
  (" nDims = [ ".toList ++ padLeft 3 (natText ndims) ++ " ];\n".toList)

/-- The other lines (mds.py:569-602). -/
def metaTail (fe : F → Text) (dims : List Nat) (prec : Prec) (nrec : Nat) (itr : Option Int) (times : Option (List F))
    (fields : Option (List Text)) : Text :=
  (" dimList = [\n ".toList ++ joinText ",\n ".toList (dims.map (dimRow (dimWidth dims))) ++ "\n ];\n".toList) ++
  (" dataprec = [ '".toList ++ prec.text ++ "' ];\n".toList) ++
  (" nrecords = [ ".toList ++ padLeft 5 (natText nrec) ++ " ];\n".toList) ++
  (match itr with
    | none => []
    | some n => " timeStepNumber = [ ".toList ++ padLeft 10 (intText n) ++ " ];\n".toList) ++
  (match times with
    | none => []
    | some ts => " timeInterval = [".toList ++ (ts.flatMap fun t => padLeft 20 (fe t)) ++ " ];\n".toList) ++
  (match fields with
    | none => []
    | some fs => fieldsText fs)

/-- `open(n,'w')`, `write(t)`, `close()`. -/
def MdsDir.putText (d : MdsDir) (n t : Text) : MdsDir :=
  ⟨if n ∈ d.names then d.names else d.names ++ [n], fun m => if m = n then t else d.text m, d.data⟩

/-- `tofile(n)`. -/
def MdsDir.putData (d : MdsDir) (n : Text) (bs : List Byte) : MdsDir :=
  ⟨if n ∈ d.names then d.names else d.names ++ [n], d.text, fun m => if m = n then bs else d.data m⟩

/-- `ndims`, `dims` and `nrec` with the checks (mds.py:521-539). -/
def wrShape (arr : NdArr F) (c : WrFull F) : Py (Nat × List Nat × Nat) := do
  let ndims ← ndimsOf { ndims := c.ndims, nrecords := c.nrecords : WrArgs F } arr.shape
  let dims := arr.shape.reverse.take ndims
  let nrec := prodL (if ndims = 0 then [] else arr.shape.take (arr.shape.length - ndims))
  if c.nrecords.any (· ≠ nrec) then throw .valueError
  if c.dimlist.any (· ≠ dims.map fun n : Nat => (n : Int)) then throw .valueError
  return (ndims, dims, nrec)

/-- `itr` and `times` after lines 552-558. -/
def wrTimes (ta : TimeArith F) (c : WrFull F) : Py (Option Int × Option (List F)) :=
  match c.deltat, c.itr, c.times with
  | none, itr, times => .ok (itr, times)
  | some _, none, none => .error .typeError
  | some dt, none, some ts => match ts.getLast? with
    | none => .error .indexError
    | some t => do
      let n ← ta.itrOf t dt
      return (some n, some ts)
  | some dt, some n, none => .ok (some n, some [ta.timeOf dt n])
  | some _, some n, some ts => .ok (some n, some ts)

/-- What is known when the meta file is opened. -/
def wrHead (ta : TimeArith F) (arr : NdArr F) (c : WrFull F) : Py (Nat × List Nat × Nat × Option Int × Option (List F)) := do
  let (ndims, dims, nrec) ← wrShape arr c
  let (itr, times) ← wrTimes ta c
  return (ndims, dims, nrec, itr, times)

/-- `fbase` with the iteration number (mds.py:560-561). -/
def nameOfZ (fbase : Text) : Option Int → Text
  | none => fbase
  | some n => fbase ++ itrTextZ n

/-- `wrmds` (mds.py:482-604): the directory afterwards and the outcome.  `max(dims)` (line 569) raises if there are no dimensions; by then
the meta file has been replaced by its first lines. -/
def wrmdsOn [F64 F] [F32 F] (fe : F → Text) (ta : TimeArith F) (d : MdsDir) (fbase : Text) (arr : NdArr F) (c : WrFull F) :
    MdsDir × Py Unit :=
  match wrHead ta arr c with
  | .error e => (d, .error e)
  | .ok (ndims, dims, nrec, itr, times) =>
    let base := nameOfZ fbase itr
    if dims = [] then (d.putText (base ++ ".meta".toList) (metaHead c.simulation ndims), .error .valueError)
    else ((d.putText (base ++ ".meta".toList) (metaHead c.simulation ndims ++ metaTail fe dims c.prec nrec itr times c.fields)).putData
      (base ++ ".data".toList) (arr.toList.flatMap (itemBytes c.prec c.endian)), .ok ())

end SG
