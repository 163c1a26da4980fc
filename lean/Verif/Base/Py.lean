/-!
# Python / numpy primitives

Only what simplegrid uses: exceptions as values, 2-d arrays with checked indexing,
slices, loops, `np.rot90`, `np.concatenate`.
-/

namespace SG

/-- The exception classes that simplegrid (or numpy on its behalf) raises. -/
inductive PyErr
  | valueError | indexError | runtimeError | keyError | typeError
  | ioError | assertionError | notImplemented | attributeError | zeroDivisionError | overflowError
deriving DecidableEq, Repr

/-- A Python computation: a value or a raised exception. -/
abbrev Py (α : Type) := Except PyErr α

/-- A numpy 2-d array: its shape and its elements.
Only `get i j` with `i < rows`, `j < cols` is observable (see `Mat.Same`). -/
structure Mat (α : Type) where
  rows : Nat
  cols : Nat
  get : Nat → Nat → α

/-- Python index normalisation on an axis of length `n`: negative indices count from the end;
`none` is an `IndexError`. -/
def pyIdx (n : Nat) (i : Int) : Option Nat :=
  if 0 ≤ i then (if i < n then some i.toNat else none)
  else if 0 ≤ (n : Int) + i then some ((n : Int) + i).toNat else none

/-- Number of indices in `start:stop:step` (all non-negative, `stop` already clamped). -/
def sliceLen (start stop step : Nat) : Nat := (stop - start + (step - 1)) / step

/-- `range(a,b)` for non-negative bounds. -/
def pyRange (a b : Nat) : List Nat := List.range' a (b - a)

namespace Mat
variable {α β : Type}

/-- Observable equality: same shape, same elements in range. -/
def Same (A B : Mat α) : Prop :=
  A.rows = B.rows ∧ A.cols = B.cols ∧
    ∀ i j, i < A.rows → j < A.cols → A.get i j = B.get i j

/-- `np.zeros((r,c))`, `np.full((r,c),v)`. -/
def full (r c : Nat) (v : α) : Mat α := ⟨r, c, fun _ _ => v⟩

/-- `m[i,j]` for non-negative `i,j` (raises `IndexError` out of range). -/
def at' (m : Mat α) (i j : Nat) : Py α :=
  if i < m.rows ∧ j < m.cols then .ok (m.get i j) else .error .indexError

/-- `m[i,j]` for arbitrary Python ints. -/
def atI (m : Mat α) (i j : Int) : Py α :=
  match pyIdx m.rows i, pyIdx m.cols j with
  | some i, some j => .ok (m.get i j)
  | _, _ => .error .indexError

/-- Element update without range check. -/
def set (m : Mat α) (i j : Nat) (v : α) : Mat α :=
  { m with get := fun i' j' => if i' = i ∧ j' = j then v else m.get i' j' }

/-- `m[i,j] = v` for non-negative `i,j`. -/
def setAt (m : Mat α) (i j : Nat) (v : α) : Py (Mat α) :=
  if i < m.rows ∧ j < m.cols then .ok (m.set i j v) else .error .indexError

/-- `m[i,j] = v` for arbitrary Python ints. -/
def setAtI (m : Mat α) (i j : Int) (v : α) : Py (Mat α) :=
  match pyIdx m.rows i, pyIdx m.cols j with
  | some i, some j => .ok (m.set i j v)
  | _, _ => .error .indexError

/-- `m[i0:i1:si, j0:j1:sj]` for non-negative bounds and positive strides (a view; here a copy).
Slice stops are clamped to the axis length, as numpy does. -/
def strided (m : Mat α) (i0 i1 si j0 j1 sj : Nat) : Mat α :=
  { rows := sliceLen i0 (min i1 m.rows) si
    cols := sliceLen j0 (min j1 m.cols) sj
    get := fun i j => m.get (i0 + i * si) (j0 + j * sj) }

/-- `m[i0:i1, j0:j1] = v`, the block having exactly the shape of `v`
(numpy raises `ValueError` if it does not; broadcasting of length-1 axes is not needed where this is used). -/
def setBlock (m : Mat α) (i0 i1 j0 j1 : Nat) (v : Mat α) : Py (Mat α) :=
  if v.rows = min i1 m.rows - i0 ∧ v.cols = min j1 m.cols - j0 then
    .ok { m with get := fun i j =>
      if i0 ≤ i ∧ i < i1 ∧ j0 ≤ j ∧ j < j1 then v.get (i - i0) (j - j0) else m.get i j }
  else .error .valueError

/-- `np.rot90(m)`: counter-clockwise quarter turn, `rot90(m)[i,j] = m[j, cols-1-i]`. -/
def rot90 (m : Mat α) : Mat α :=
  { rows := m.cols, cols := m.rows, get := fun i j => m.get j (m.cols - 1 - i) }

/-- `np.concatenate((a,b),0)`. -/
def concat0 (a b : Mat α) : Py (Mat α) :=
  if a.cols = b.cols then
    .ok { rows := a.rows + b.rows, cols := a.cols,
          get := fun i j => if i < a.rows then a.get i j else b.get (i - a.rows) j }
  else .error .valueError

/-- `np.concatenate((a,b),1)`. -/
def concat1 (a b : Mat α) : Py (Mat α) :=
  if a.rows = b.rows then
    .ok { rows := a.rows, cols := a.cols + b.cols,
          get := fun i j => if j < a.cols then a.get i j else b.get i (j - a.cols) }
  else .error .valueError

/-- `m[1:,:]` -/
def tailRows (m : Mat α) : Mat α := ⟨m.rows - 1, m.cols, fun i j => m.get (i + 1) j⟩
/-- `m[:-1,:]` -/
def initRows (m : Mat α) : Mat α := ⟨m.rows - 1, m.cols, m.get⟩
/-- `m[:,1:]` -/
def tailCols (m : Mat α) : Mat α := ⟨m.rows, m.cols - 1, fun i j => m.get i (j + 1)⟩
/-- `m[:,:-1]` -/
def initCols (m : Mat α) : Mat α := ⟨m.rows, m.cols - 1, m.get⟩

/-- All elements in C order. -/
def toList (m : Mat α) : List α :=
  (List.range m.rows).flatMap fun i => (List.range m.cols).map fun j => m.get i j

end Mat

/-- `for i in is: for j in js: body` -/
def forIJ {σ : Type} (is js : List Nat) (body : σ → Nat → Nat → Py σ) (s : σ) : Py σ :=
  is.foldlM (fun s i => js.foldlM (fun s j => body s i j) s) s

/-- `for i in range(i0,i1): for j in range(j0,j1): [if cond:] m[i,j] = expr`,
where `expr i j` evaluates the condition and the right-hand side (`none`: condition false). -/
def assignLoop {α : Type} (i0 i1 j0 j1 : Nat) (expr : Nat → Nat → Py (Option α)) (m : Mat α) :
    Py (Mat α) :=
  forIJ (pyRange i0 i1) (pyRange j0 j1)
    (fun m i j => do
      match ← expr i j with
      | some v => m.setAt i j v
      | none => pure m) m

end SG
