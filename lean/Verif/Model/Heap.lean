import Verif.Model.Array
/-!
# Memory sharing between arrays

Arrays are objects: a view (positions in a buffer) with a shape.  A *history* is a list of operations; the
object an operation returns is named by the position of the operation in the history.  Only what decides
which memory an array refers to, and what is written to memory, is modelled here; the values computed by
arithmetic are those of `Model/Array.lean`.  Simplification: all entries are floats (NumPy would truncate
when a float is assigned to an entry of an integer array).
-/

namespace SkSpatial
variable {K : Type} [PyNum K]

namespace Mem

/-- The address of a buffer: the operation that allocated it and a counter within this operation. -/
abbrev Addr := Nat × Nat

/-- A NumPy array as an object in memory: a buffer, the positions of its entries, and its shape. -/
structure View where
  buf : Addr
  idx : List Nat
  shape : List Nat
  deriving DecidableEq, Repr

/-- An argument: a Python list of numbers, a list of lists (given with its shape), or an existing array. -/
inductive Src (K : Type) where
  | list (vals : List K)
  | rows (shape : List Nat) (vals : List K)
  | obj (j : Nat)

/-- What the user can do.  `j`, `k` name the object returned by an earlier operation. -/
inductive Op (K : Type) where
  /-- `np.array(x)`, also `x.copy()` -/
  | array (x : Src K)
  /-- `Point(x)` or `Vector(x)` -/
  | new1D (x : Src K)
  /-- `Points(x)` -/
  | newPoints (x : Src K)
  /-- `x.to_array()` -/
  | toArray (j : Nat)
  /-- `x[i]` on a 2D array -/
  | row (j i : Nat)
  /-- `x[lo:hi]` (with `0 ≤ lo`, `0 ≤ hi`): entries of a 1D array, rows of a 2D array -/
  | slice (j lo hi : Nat)
  /-- `x + y` on 1D arrays -/
  | add (j k : Nat)
  /-- `x.set_dimension(dim)` on a 1D array -/
  | setDimension (j : Nat) (dim : Int)
  /-- `x.round(decimals)`, returning the array that was rounded (NumPy 2, and 1D arrays in NumPy 1) -/
  | round (j : Nat) (decimals : Int)
  /-- `x.round(decimals)` where the result is wrapped again in `Points(...)` (2D arrays in NumPy 1) -/
  | roundWrap (j : Nat) (decimals : Int)
  /-- `x[i] = v`, `i` counting the entries in C order -/
  | setItem (j i : Nat) (v : K)
  /-- `x[:] = v` -/
  | fill (j : Nat) (v : K)
  /-- `x += y` on 1D arrays -/
  | iadd (j k : Nat)
  /-- the constructor of a class that stores `Point(x)` or `Vector(x)` for some of its arguments
  (`Line`, `Plane`, `Sphere`, `Circle`, `Cylinder`, `Triangle`, `LineSegment`) and then checks them -/
  | build (check : List (List K) → Res Unit) (xs : List (Src K))
  /-- an attribute such as `line.point`: the `i`-th stored array -/
  | field (j i : Nat)
  /-- any method that computes a new array from the values of existing arrays (`a.unit()`,
  `line.project_point(p)`, `Vector.from_points(a, b)`, ...); `(j, i)` names the `i`-th array of the object `j` -/
  | call (f : List (NDArray K) → Res (NDArray K)) (args : List (Nat × Nat))

/-- The state: the contents of the buffers, and what each operation so far returned: the views of the
returned object (one for an array, several for an object built from arrays, none for `None`) or the
exception. -/
structure State (K : Type) where
  mem : Addr → List K
  objs : List (Res (List View))

/-- The state before the first operation. -/
def init : State K := ⟨fun _ => [], []⟩

/-- The entries of an array. -/
def State.read (s : State K) (v : View) : List K := v.idx.map fun i => (s.mem v.buf).getD i zero

/-- The array named `j`. -/
def State.view (s : State K) (j : Nat) : Res View :=
  match s.objs[j]? with
  | some (.ok [v]) => .ok v
  | _ => .error (.typeError "not an array")

/-- A new buffer with the given contents, seen through a view of the given shape. -/
def fresh (a : Addr) (shape : List Nat) (n : Nat) : View := ⟨a, List.range n, shape⟩

/-- `mem` with the buffer at `a` replaced. -/
def setBuf (mem : Addr → List K) (a : Addr) (vals : List K) : Addr → List K := fun b => if b = a then vals else mem b

/-- Write one entry. -/
def write1 (mem : Addr → List K) (v : View) (i : Nat) (x : K) : Addr → List K :=
  match v.idx[i]? with
  | some p => setBuf mem v.buf ((mem v.buf).set p x)
  | none => mem

/-- Write the entries `i`, `i+1`, ... of an array. -/
def writeFrom (mem : Addr → List K) (v : View) (i : Nat) : List K → (Addr → List K)
  | [] => mem
  | x :: xs => writeFrom (write1 mem v i x) v (i + 1) xs

/-- Write all entries of an array. -/
def writeAll (mem : Addr → List K) (v : View) (vals : List K) : Addr → List K := writeFrom mem v 0 vals

/-- The array `np.array(x)` as shape and values (a copy). -/
def State.eval (s : State K) (x : Src K) : Res (NDArray K) :=
  match x with
  | .list vals => .ok ⟨[vals.length], vals⟩
  | .rows shape vals => .ok ⟨shape, vals⟩
  | .obj j => do
    let v ← s.view j
    pure ⟨v.shape, s.read v⟩

/-- `np.asarray(x)` (_base_array.py:30): an existing array itself, a new one at address `a` for a list.
Returns the memory and the view. -/
def State.asarray (s : State K) (a : Addr) (x : Src K) : Res ((Addr → List K) × View) :=
  match x with
  | .list vals => .ok (setBuf s.mem a vals, fresh a [vals.length] vals.length)
  | .rows shape vals => .ok (setBuf s.mem a vals, fresh a shape vals.length)
  | .obj j => do
    let v ← s.view j
    pure (s.mem, v)

/-- `Point(x)` / `Vector(x)`: `_BaseArray1D.__new__` (_base_array.py:131-137) checks a copy
(`np.array(array_like)`) but passes the argument itself to `_BaseArray.__new__` (22-32), which returns a
view of `np.asarray(array_like)`. -/
def State.new1D (s : State K) (a : Addr) (x : Src K) : Res ((Addr → List K) × View) := do
  let c ← s.eval x
  let _ ← newArray1D c
  s.asarray a x

/-- `Points(x)`: `_BaseArray2D.__new__` (_base_array.py:190-196) passes the copy `np.array(array_like)` to
`_BaseArray.__new__` (22-32), which returns a view of this copy. -/
def State.newPoints (s : State K) (a : Addr) (x : Src K) : Res ((Addr → List K) × View) := do
  let c ← s.eval x
  let c ← newArray2D c
  pure (setBuf s.mem a c.data, fresh a c.shape c.data.length)

/-- The stored arrays `Point(x)`, `Vector(x)`, ... of a compound object, one after the other. -/
def State.newList (s : State K) (n : Nat) : Nat → List (Src K) → Res ((Addr → List K) × List View)
  | _, [] => .ok (s.mem, [])
  | i, x :: xs => do
    let (m, v) ← s.new1D (n, i) x
    let (m', vs) ← State.newList { s with mem := m } n (i + 1) xs
    pure (m', v :: vs)

/-- The values of the `i`-th array of the object `j`. -/
def State.arrayAt (s : State K) (ji : Nat × Nat) : Res (NDArray K) :=
  match s.objs[ji.1]? with
  | some (.ok vs) => match vs[ji.2]? with
    | some v => .ok ⟨v.shape, s.read v⟩
    | none => .error (.attributeError "no such attribute")
  | _ => .error (.attributeError "no such attribute")

/-- The effect of one operation on memory, and the views of the object it returns.  `n` is the number of
earlier operations. -/
def State.effect (s : State K) (n : Nat) : Op K → Res ((Addr → List K) × List View)
  | .array x => do
    let c ← s.eval x
    pure (setBuf s.mem (n, 0) c.data, [fresh (n, 0) c.shape c.data.length])
  | .new1D x => do
    let (m, v) ← s.new1D (n, 0) x
    pure (m, [v])
  | .newPoints x => do
    let (m, v) ← s.newPoints (n, 0) x
    pure (m, [v])
  | .toArray j => do   -- `np.array(self)` (_base_array.py:55-70)
    let v ← s.view j
    let vals := s.read v
    pure (setBuf s.mem (n, 0) vals, [fresh (n, 0) v.shape vals.length])
  | .row j i => do     -- NumPy basic indexing: a view
    let v ← s.view j
    match v.shape with
    | [m, w] => if i < m then pure (s.mem, [⟨v.buf, (v.idx.drop (i * w)).take w, [w]⟩])
                else .error (.indexError "index out of bounds")
    | _ => .error (.indexError "not a 2D array")
  | .slice j lo hi => do  -- NumPy basic slicing: a view
    let v ← s.view j
    match v.shape with
    | [_] =>
      let idx := (v.idx.take hi).drop lo
      pure (s.mem, [⟨v.buf, idx, [idx.length]⟩])
    | [m, w] => pure (s.mem, [⟨v.buf, (v.idx.take (hi * w)).drop (lo * w), [min hi m - lo, w]⟩])
    | _ => .error (.indexError "not a 1D or 2D array")
  | .add j k => do
    let v ← s.view j
    let w ← s.view k
    let vals ← vadd (s.read v) (s.read w)
    pure (setBuf s.mem (n, 0) vals, [fresh (n, 0) [vals.length] vals.length])
  | .setDimension j dim => do   -- (_base_array.py:142-184): `np.pad` allocates
    let v ← s.view j
    let vals ← SkSpatial.setDimension dim (s.read v)
    pure (setBuf s.mem (n, 0) vals, [fresh (n, 0) [vals.length] vals.length])
  | .round j d => do   -- `np.around(self, decimals=decimals, out=self)` (_base_array.py:107-125)
    let v ← s.view j
    pure (writeAll s.mem v (roundValues d (s.read v)), [v])
  | .roundWrap j d => do
    let v ← s.view j
    let vals := roundValues d (s.read v)
    pure (setBuf (writeAll s.mem v vals) (n, 0) vals, [fresh (n, 0) v.shape vals.length])
  | .setItem j i x => do
    let v ← s.view j
    if i < v.idx.length then pure (write1 s.mem v i x, []) else .error (.indexError "index out of bounds")
  | .fill j x => do
    let v ← s.view j
    pure (writeAll s.mem v (List.replicate v.idx.length x), [])
  | .iadd j k => do
    let v ← s.view j
    let w ← s.view k
    let vals ← vadd (s.read v) (s.read w)
    if vals.length = v.idx.length then pure (writeAll s.mem v vals, [v])
    else .error (.valueError "non-broadcastable output operand")
  | .build check xs => do   -- e.g. `_BaseLinePlane.__init__` (_base_line_plane.py:17-27)
    let (m, vs) ← s.newList n 0 xs
    let _ ← check (vs.map fun v => State.read { s with mem := m } v)
    pure (m, vs)
  | .field j i =>
    match s.objs[j]? with
    | some (.ok vs) => match vs[i]? with
      | some v => .ok (s.mem, [v])
      | none => .error (.attributeError "no such attribute")
    | _ => .error (.attributeError "no such attribute")
  | .call f args => do   -- NumPy arithmetic (`+`, `*`, `np.array`, ...) allocates its result
    let xs ← args.mapM s.arrayAt
    let c ← f xs
    pure (setBuf s.mem (n, 0) c.data, [fresh (n, 0) c.shape c.data.length])

/-- One operation.  An exception leaves memory as it was. -/
def State.step (s : State K) (op : Op K) : State K :=
  match s.effect s.objs.length op with
  | .ok (m, vs) => ⟨m, s.objs ++ [.ok vs]⟩
  | .error e => ⟨s.mem, s.objs ++ [.error e]⟩

/-- A history, from a given state. -/
def State.run (s : State K) (h : List (Op K)) : State K := h.foldl State.step s

/-- The observable value of the `i`-th array of the object named `j`: its shape and entries, or nothing. -/
def State.value (s : State K) (j i : Nat) : Option (List Nat × List K) :=
  match s.objs[j]? with
  | some (.ok vs) => vs[i]?.map fun v => (v.shape, s.read v)
  | _ => none

end Mem
end SkSpatial
