/-!
# Numbers, exceptions and the scalar functions of `math` / `numpy`

The model is generic in the number type `K`.  `PyNum K` lists the scalar operations that the Python
code performs on Python floats / `np.float64` values.  Instances: `ℝ` (exact), `XReal` (with NaN and
infinities), `rounded fl` (with a rounding `fl` after every operation), `NpNum` (64-bit integers beside reals) and
`Float` (for tests).

Nothing in this file is geometry; it is the runtime vocabulary used by the other model files.
-/

namespace SkSpatial

/-- The scalar operations of Python floats / `np.float64` used by the library.
Integer dtypes: an array of integers stays an integer array until an operation converts it; the conversions are
marked by `toFloat`, and the instance `NpNum` (`Inst/NpNum.lean`) has wrapping 64-bit integers. -/
class PyNum (K : Type) where
  add : K → K → K
  sub : K → K → K
  mul : K → K → K
  div : K → K → K
  neg : K → K
  ofInt : Int → K
  lt : K → K → Bool
  le : K → K → Bool
  eq : K → K → Bool
  /-- `np.isfinite` on one value. -/
  isFinite : K → Bool
  abs : K → K
  /-- conversion to a float (`float(x)`, `x.astype(float)`): the identity unless `K` has integers. -/
  toFloat : K → K
  /-- the IEEE square root (NaN below zero); `math.sqrt` is `mathSqrt`. -/
  sqrt : K → K
  sin : K → K
  cos : K → K
  /-- the IEEE arc cosine (NaN outside `[-1, 1]`); `math.acos` is `mathAcos`. -/
  acos : K → K
  atan2 : K → K → K
  pi : K
  /-- round half to even, to an integral value. -/
  rint : K → K
  /-- the sum of a list (Python `sum`, `np.sum`, `np.mean`); by default from left to right, starting from `0`.  The order
  matters only where `add` rounds: the instance `rounded A` (`Inst/Rounded.lean`) has an arbitrary `sum`. -/
  sum : List K → K := fun l => l.foldl add (ofInt 0)
  /-- the dot product of two arrays of equal length (`np.dot`, `@`, `np.linalg.norm`); by default the products, added from
  left to right. -/
  dot : List K → List K → K := fun a b => (List.zipWith mul a b).foldl add (ofInt 0)

infixl:65 " +. " => PyNum.add
infixl:65 " -. " => PyNum.sub
infixl:70 " *. " => PyNum.mul
infixl:70 " /. " => PyNum.div
infix:50 " <. " => PyNum.lt
infix:50 " <=. " => PyNum.le
infix:50 " ==. " => PyNum.eq

/-- Python exceptions raised by the library, with their message. -/
inductive Err where
  | valueError (msg : String)
  | typeError (msg : String)
  | attributeError (msg : String)
  | linAlgError (msg : String)
  | indexError (msg : String)
  | overflowError (msg : String)
  deriving DecidableEq, Repr

abbrev Res (α : Type) := Except Err α

variable {K : Type} [PyNum K]

/-- The literal `0`. -/
@[inline] def zero : K := PyNum.ofInt 0
/-- The literal `1`. -/
@[inline] def one : K := PyNum.ofInt 1
/-- The literal `2`. -/
@[inline] def two : K := PyNum.ofInt 2
/-- The literal `0.5` (src/skspatial/measurement.py:49, circle.py:157). -/
@[inline] def half : K := PyNum.ofInt 1 /. PyNum.ofInt 2

/-- `x ** 2`. -/
@[inline] def sq (x : K) : K := x *. x
/-- `x ** 3`. -/
@[inline] def cube (x : K) : K := x *. x *. x

/-- `math.sqrt`: raises `ValueError` on a negative argument. -/
def mathSqrt (x : K) : Res K :=
  if x <. zero then .error (.valueError "math domain error") else .ok (PyNum.sqrt x)

/-- `math.acos`: raises `ValueError` outside `[-1, 1]`. -/
def mathAcos (x : K) : Res K :=
  if x <. PyNum.ofInt (-1) || (one : K) <. x then .error (.valueError "math domain error")
  else .ok (PyNum.acos x)

/-- `int(np.sign(x))`; `int(nan)` raises `ValueError`. -/
def intSign (x : K) : Res Int :=
  if (zero : K) <. x then .ok 1
  else if x <. zero then .ok (-1)
  else if x ==. zero then .ok 0
  else .error (.valueError "cannot convert float NaN to integer")

/-- `np.sign(x)` as a number (NaN is returned unchanged). -/
def signNum (x : K) : K :=
  if (zero : K) <. x then one
  else if x <. zero then PyNum.ofInt (-1)
  else if x ==. zero then zero
  else x

/-- `np.clip(x, lo, hi)`; NaN is returned unchanged. -/
def clip (x lo hi : K) : K :=
  if x <. lo then lo else if hi <. x then hi else x

/-- The keywords `rel_tol` and `abs_tol` of `math.isclose`. -/
structure Tol (K : Type) where
  rel : K
  abs : K

/-- The default keywords of `math.isclose`: `rel_tol=1e-09, abs_tol=0.0`.  (`1e-09` is the real number
`10⁻⁹`, not its nearest double.) -/
def Tol.default : Tol K := ⟨PyNum.ofInt 1 /. PyNum.ofInt 1000000000, zero⟩

/-- `math.isclose(a, b, rel_tol=..., abs_tol=...)`, branch by branch as in CPython's `mathmodule.c`:
negative tolerances raise, equal values are close, infinities are close only to themselves, and
otherwise `diff <= |rel*b| or diff <= |rel*a| or diff <= abs`.  The arguments are converted to floats first. -/
def isclose (tol : Tol K) (a b : K) : Res Bool :=
  if tol.rel <. zero || tol.abs <. zero then .error (.valueError "tolerances must be non-negative")
  else
    let a := PyNum.toFloat a
    let b := PyNum.toFloat b
    if a ==. b then .ok true
    else if !(PyNum.isFinite a) && a ==. a || !(PyNum.isFinite b) && b ==. b then .ok false
    else
      let diff := PyNum.abs (b -. a)
      .ok (diff <=. PyNum.abs (tol.rel *. b) || diff <=. PyNum.abs (tol.rel *. a) || diff <=. tol.abs)

/-- `round(x, n)` / `np.around(x, n)` on one value: multiply by `10**n`, round half to even, divide
(NumPy's algorithm; for negative `n` divide first, then multiply). -/
def roundDigits (n : Int) (x : K) : K :=
  if 0 ≤ n then PyNum.rint (x *. PyNum.ofInt (10 ^ n.toNat)) /. PyNum.ofInt (10 ^ n.toNat)
  else PyNum.rint (x /. PyNum.ofInt (10 ^ (-n).toNat)) *. PyNum.ofInt (10 ^ (-n).toNat)

/-- The sum of a list (Python `sum`, NumPy `add.reduce`).  In exact arithmetic the order is irrelevant; with rounding the
order is a parameter of the instance (`rounded`).  Simplification: it depends only on the list, not on the call. -/
def sumL (l : List K) : K := PyNum.sum l

/-- `np.linspace(start, stop, n)` for `n ≥ 0`. -/
def linspace (start stop : K) (n : Nat) : List K :=
  match n with
  | 0 => []
  | 1 => [start]
  | n + 2 => (List.range (n + 2)).map fun i =>
      if i = n + 1 then stop
      else start +. PyNum.ofInt i *. ((stop -. start) /. PyNum.ofInt (n + 1))

end SkSpatial
