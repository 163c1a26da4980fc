import Verif.Base.Float
/-! # numpy arrays of any rank

A shape and a function from multi-indices; only indices inside the shape are observable.  C order throughout. -/

namespace SG

structure NdArr (F : Type) where
  shape : List Nat
  get : List Nat → F

/-- Number of elements (`np.prod(shape)`). -/
def prodL : List Nat → Nat
  | [] => 1
  | n :: s => n * prodL s

/-- All multi-indices in C order (last index fastest). -/
def indices : List Nat → List (List Nat)
  | [] => [[]]
  | n :: s => (List.range n).flatMap fun i => (indices s).map (i :: ·)

/-- Position of a multi-index in C order. -/
def ravel : List Nat → List Nat → Nat
  | _ :: s, i :: idx => i * prodL s + ravel s idx
  | _, _ => 0

namespace NdArr
variable {F : Type}

/-- `a.ravel()` as a list. -/
def toList (a : NdArr F) : List F := (indices a.shape).map a.get

/-- An array of shape `s` with the elements of `l` in C order; `d` beyond the end of the list. -/
def ofList (d : F) (s : List Nat) (l : List F) : NdArr F := ⟨s, fun idx => l.getD (ravel s idx) d⟩

/-- `a.reshape(s)` without `-1`. -/
def reshape (d : F) (a : NdArr F) (s : List Nat) : Py (NdArr F) :=
  if prodL s = prodL a.shape then .ok (ofList d s a.toList) else .error .valueError

/-- The index that a list of index lists, one per axis, gives. -/
def pick (sel : List (List Nat)) (idx : List Nat) : List Nat := List.zipWith (fun l i => l.getD i 0) sel idx

/-- `a[sel]`: outer indexing with one list of indices per axis (slices and `np.ix_`). -/
def select (a : NdArr F) (sel : List (List Nat)) : NdArr F := ⟨sel.map List.length, fun idx => a.get (pick sel idx)⟩

/-- Can an array of shape `s` be broadcast to shape `t` of the same rank? -/
def castable (s t : List Nat) : Bool := s.length = t.length && (List.zip s t).all fun x => x.1 = x.2 || x.1 = 1

/-- The element that is broadcast to `idx`. -/
def bget (v : NdArr F) (idx : List Nat) : F := v.get (List.zipWith (fun n i => if n = 1 then 0 else i) v.shape idx)

def set (a : NdArr F) (p : List Nat) (x : F) : NdArr F := { a with get := fun idx => if idx = p then x else a.get idx }

/-- `view[...] = v`, `view` being a view of shape `vs` whose element `idx` is element `pos idx` of `a`: one element after the other. -/
def assign (a : NdArr F) (vs : List Nat) (pos : List Nat → List Nat) (v : NdArr F) : Py (NdArr F) :=
  if castable v.shape vs then .ok ((indices vs).foldl (fun a idx => a.set (pos idx) (v.bget idx)) a)
  else .error .valueError

end NdArr

/-- `slice(a,b).indices(n)` for step 1: first index and number of indices. -/
def sliceOf (n : Nat) (a b : Int) : Nat × Nat :=
  let clip (z : Int) : Int := if z < 0 then max 0 (z + n) else min z n
  ((clip a).toNat, ((clip b) - (clip a)).toNat)

/-- The indices of the slice `a:b` on an axis of length `n`. -/
def sliceList (n : Nat) (a b : Int) : List Nat := List.range' (sliceOf n a b).1 (sliceOf n a b).2

end SG
