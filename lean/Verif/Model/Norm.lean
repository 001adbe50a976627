import Verif.Model.Points
/-!
# `Vector.norm(ord=...)` (src/skspatial/objects/vector.py:103-133)

`norm` passes its keywords on to `numpy.linalg.norm`; this file models what that function computes for a 1D array and
each kind of `ord` (NumPy documentation of `numpy.linalg.norm`, column "norm for vectors").
Not modelled: the keywords `axis` and `keepdims` (no meaning for one vector) and strings (rejected for vectors).
-/

namespace SkSpatial
variable {K : Type} [PyNum K]

/-- `x ** p` for floats (only used by `norm(ord=p)`, vector.py:133). -/
class PyPow (K : Type) where
  pow : K → K → K

/-- The values of `ord` that numpy.linalg.norm distinguishes for a 1D array (passed on at vector.py:133). -/
inductive NormOrd (K : Type) where
  /-- `ord=None`, the default -/
  | default
  /-- `ord=np.inf` -/
  | inf
  /-- `ord=-np.inf` -/
  | negInf
  /-- any other number -/
  | num (p : K)

/-- `min` of a non-empty array (used by numpy.linalg.norm for `ord=-np.inf`, vector.py:133). -/
def minL : List K → K
  | [] => zero
  | [x] => x
  | x :: xs => let m := minL xs; if m <. x then m else x

namespace Vec

/-- `Vector.norm(ord=ord)` (vector.py:103-133, body of numpy.linalg.norm for a 1D array): `ord` 2 is the default,
0 counts the non-zero entries, 1 sums the absolute values, the infinities take their maximum and minimum, any other
number is `sum(abs(x)**ord)**(1/ord)`. -/
def normOrd [PyPow K] (ord : NormOrd K) (v : List K) : K :=
  match ord with
  | .default => normv v
  | .inf => Pts.maxL (v.map PyNum.abs)
  | .negInf => minL (v.map PyNum.abs)
  | .num p =>
    if p ==. zero then sumL (v.map fun x => if x ==. zero then zero else one)
    else if p ==. one then sumL (v.map PyNum.abs)
    else if p ==. two then normv v
    else PyPow.pow (sumL (v.map fun x => PyPow.pow (PyNum.abs x) p)) (one /. p)

end Vec
end SkSpatial
