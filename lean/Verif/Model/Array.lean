import Verif.Model.Num
/-!
# Arrays: `src/skspatial/objects/_base_array.py` and the NumPy primitives it rests on

One-dimensional arrays (`Point`, `Vector`) are `List K`, two-dimensional ones (`Points`) are lists of
rows `List (List K)`.  The constructors, which accept arrays of any shape, are modelled on `NDArray`.
-/

namespace SkSpatial

variable {K : Type} [PyNum K]

/-- A NumPy array: its shape and its entries in C order.  (`np.array(x)` of any non-ragged
array_like has this form.) -/
structure NDArray (K : Type) where
  shape : List Nat
  data : List K
  deriving DecidableEq, Repr

namespace NDArray
/-- `a.ndim`. -/
def ndim (a : NDArray K) : Nat := a.shape.length
/-- `np.size(a)`: the product of the shape. -/
def size (a : NDArray K) : Nat := a.shape.foldl (· * ·) 1
/-- The entries match the shape; true of every array NumPy builds. -/
def WF (a : NDArray K) : Prop := a.data.length = a.size
/-- `np.array(l)` for a flat list of numbers. -/
def of1D (l : List K) : NDArray K := ⟨[l.length], l⟩
end NDArray

/-- `_BaseArray.__new__` (src/skspatial/objects/_base_array.py:22-32): reject an empty array, then
non-finite values; otherwise the same values, viewed as the class. -/
def newArray (a : NDArray K) : Res (NDArray K) :=
  if a.size = 0 then .error (.valueError "The array must not be empty.")
  else if !(a.data.all PyNum.isFinite) then .error (.valueError "The values must all be finite.")
  else .ok a

/-- `_BaseArray1D.__new__` (_base_array.py:131-137), i.e. `Point(a)` and `Vector(a)`. -/
def newArray1D (a : NDArray K) : Res (NDArray K) :=
  if a.ndim ≠ 1 then .error (.valueError "The array must be 1D.") else newArray a

/-- `_BaseArray2D.__new__` (_base_array.py:190-196), i.e. `Points(a)`. -/
def newArray2D (a : NDArray K) : Res (NDArray K) :=
  if a.ndim ≠ 2 then .error (.valueError "The array must be 2D.") else newArray a

/-- `_BaseArray1D.__array_finalize__` (_base_array.py:139-140): `dimension = size`. -/
def dimension1D (a : NDArray K) : Nat := a.size

/-- `_BaseArray2D.__array_finalize__` (_base_array.py:198-202): `dimension = shape[1]`, or `None`. -/
def dimension2D (a : NDArray K) : Option Nat := a.shape[1]?

/-- `Point(l)` / `Vector(l)` for a flat list `l` (the array_likes all other methods pass on):
`_base_array.py:131-137` and `22-32` specialised to `NDArray.of1D l`; see `new1D_eq` in
`Props/Arrays.lean`. -/
def new1D (l : List K) : Res (List K) :=
  if l.length = 0 then .error (.valueError "The array must not be empty.")
  else if !(l.all PyNum.isFinite) then .error (.valueError "The values must all be finite.")
  else .ok l

/-- `Points(rows)` for a list of rows: `np.array(rows)` raises on a ragged list and is 1D for `[]`,
then `_base_array.py:190-196` and `22-32`. -/
def newPoints (rows : List (List K)) : Res (List (List K)) :=
  match rows with
  | [] => .error (.valueError "The array must be 2D.")
  | r :: rs =>
    if !(rs.all fun s => s.length = r.length) then
      .error (.valueError "setting an array element with a sequence.")
    else if r.length = 0 then .error (.valueError "The array must not be empty.")
    else if !((r :: rs).all fun s => s.all PyNum.isFinite) then
      .error (.valueError "The values must all be finite.")
    else .ok rows

/-! ### NumPy primitives on 1D arrays -/

/-- NumPy broadcasting of a binary ufunc on two 1D arrays: equal lengths, or one of length one. -/
def broadcast2 (f : K → K → K) (a b : List K) : Res (List K) :=
  if a.length = b.length then .ok (List.zipWith f a b)
  else match a, b with
    | [x], _ => .ok (b.map (f x))
    | _, [y] => .ok (a.map (fun x => f x y))
    | _, _ => .error (.valueError "operands could not be broadcast together")

/-- `a + b` on 1D arrays. -/
def vadd (a b : List K) : Res (List K) := broadcast2 PyNum.add a b
/-- `a - b` on 1D arrays (`np.subtract`). -/
def vsub (a b : List K) : Res (List K) := broadcast2 PyNum.sub a b
/-- `t * a`. -/
def smul (t : K) (a : List K) : List K := a.map (fun x => t *. x)
/-- `a / t`. -/
def sdiv (a : List K) (t : K) : List K := a.map (fun x => x /. t)

/-- The number computed by `np.dot` on arrays of equal length. -/
def dotv (a b : List K) : K := PyNum.dot a b

/-- `np.dot` / `ndarray.dot` on two 1D arrays: the lengths must agree. -/
def dot (a b : List K) : Res K :=
  if a.length = b.length then .ok (dotv a b)
  else .error (.valueError "shapes not aligned")

/-- `a.astype(float)`. -/
def toFloats (a : List K) : List K := a.map PyNum.toFloat

/-- `np.linalg.norm(a)` with the default `ord`: `sqrt(dot(a, a))`, after a conversion to floats. -/
def normv (a : List K) : K := PyNum.sqrt (dotv (toFloats a) (toFloats a))

/-- `np.cross` on two 3D arrays.  (Other lengths never reach it: `set_dimension(3)` comes first.) -/
def cross3 (a b : List K) : Res (List K) :=
  match a, b with
  | [a0, a1, a2], [b0, b1, b2] =>
    .ok [a1 *. b2 -. a2 *. b1, a2 *. b0 -. a0 *. b2, a0 *. b1 -. a1 *. b0]
  | _, _ => .error (.valueError "incompatible dimensions for cross product")

/-- `np.linalg.det` of a 2x2 matrix, as its closed form (NumPy uses an LU factorisation), after a conversion to
floats. -/
def det2 (a b c d : K) : K :=
  PyNum.toFloat a *. PyNum.toFloat d -. PyNum.toFloat b *. PyNum.toFloat c

/-! ### Methods of `_BaseArray` -/

/-- `_BaseArray1D.set_dimension` (_base_array.py:142-184). -/
def setDimension (dim : Int) (v : List K) : Res (List K) :=
  if dim < v.length then
    .error (.valueError "The desired dimension cannot be less than the current dimension.")
  else
    let nZeros := (dim - v.length).toNat
    new1D (v ++ List.replicate nZeros zero)

/-- `Points.dimension` (the width of the array; `0` only for the empty list, which is no `Points`). -/
def rowDim (rows : List (List K)) : Nat :=
  match rows with
  | [] => 0
  | r :: _ => r.length

/-- `_BaseArray2D.set_dimension` (_base_array.py:204-252). -/
def setDimension2D (dim : Int) (rows : List (List K)) : Res (List (List K)) :=
  if dim < rowDim rows then
    .error (.valueError "The desired dimension cannot be less than the current dimension.")
  else
    let nZeros := (dim - rowDim rows).toNat
    newPoints (rows.map fun r => r ++ List.replicate nZeros zero)

/-- The broadcast pairs on which `np.vectorize(f)(a, b)` calls `f`. -/
def broadcastPairs (a b : List K) : Res (List (K × K)) :=
  if a.length = b.length then .ok (List.zip a b)
  else match a, b with
    | [x], _ => .ok (b.map fun y => (x, y))
    | _, [y] => .ok (a.map fun x => (x, y))
    | _, _ => .error (.valueError "operands could not be broadcast together")

/-- `_BaseArray.is_close` (_base_array.py:72-89) with `_allclose = np.vectorize(math.isclose)`
(src/skspatial/_functions.py:137), on 1D arrays. -/
def arrIsClose (tol : Tol K) (a b : List K) : Res Bool := do
  let pairs ← broadcastPairs a b
  let bs ← pairs.mapM fun p => isclose tol p.1 p.2
  pure (bs.all id)

/-- `_BaseArray.is_equal` (_base_array.py:91-106): `np.array_equal`, `False` on different shapes. -/
def arrIsEqual (a b : List K) : Bool :=
  a.length = b.length && (List.zip a b).all fun p => p.1 ==. p.2

/-- The classes a NumPy result can be wrapped into. -/
inductive Cls where
  | point | vector | points
  deriving DecidableEq, Repr

/-- A value that comes back from a NumPy call on one of the array classes. -/
inductive Wrapped (K : Type) where
  | obj (c : Cls) (a : NDArray K)
  | plain (a : NDArray K)
  | scalar (x : K)
  deriving DecidableEq, Repr

/-- Calling the class on an array: `type(self)(array)`. -/
def construct (c : Cls) (a : NDArray K) : Res (NDArray K) :=
  match c with
  | .point => newArray1D a
  | .vector => newArray1D a
  | .points => newArray2D a

/-- `_BaseArray.__array_wrap__` (_base_array.py:34-54).  `array[()]` of a 0-d array is its scalar. -/
def arrayWrap (c : Cls) (a : NDArray K) (returnScalar : Bool) : Wrapped K :=
  if returnScalar then
    match a.shape, a.data with
    | [], [x] => .scalar x
    | _, _ => .plain a
  else
    match construct c a with
    | .ok b => .obj c b
    | .error _ => .plain a

/-- A method of `Point` or `Vector` that `ndarray` does not have is called on the result `l` of array arithmetic.
`_BaseArray.__array_wrap__` (_base_array.py:34-54) has made `l` an object of the class if its values are finite, and has left it
a plain array otherwise: then Python raises `AttributeError`.  (`l` is never empty here; see `wrapped_eq` in
`Props/Arrays.lean`.) -/
def wrapped (method : String) (l : List K) : Res (List K) :=
  if l.all PyNum.isFinite then .ok l
  else .error (.attributeError ("'numpy.ndarray' object has no attribute '" ++ method ++ "'"))

/-- The values `_BaseArray.round` writes (_base_array.py:108-125).  That they are written *into the
same object* (`out=self`) is modelled in `Model/Heap.lean`. -/
def roundValues (decimals : Int) (a : List K) : List K := a.map (roundDigits decimals)

end SkSpatial
