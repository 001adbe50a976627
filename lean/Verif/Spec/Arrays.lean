import Verif.Inst.XReal
import Verif.Model.Array
/-! # Specification vocabulary: valid arrays, vectors and radii -/

namespace SkSpatial
open XReal

/-- All values are finite (neither NaN nor infinite). -/
def AllFinite (l : List XReal) : Prop := ∀ x ∈ l, ∃ r : ℝ, x = .fin r

/-- The class invariant of a `Point`, `Vector` or `Points` object. -/
def ValidFor (c : Cls) (a : NDArray XReal) : Prop :=
  a.shape.length = (match c with | .point => 1 | .vector => 1 | .points => 2) ∧
    a.data ≠ [] ∧ AllFinite a.data

/-- The values of a wrapped result. -/
def Wrapped.data {K : Type} : Wrapped K → List K
  | .obj _ a => a.data
  | .plain a => a.data
  | .scalar x => [x]

/-- A 1D array the array constructors accept. -/
def ValidArray (l : List XReal) : Prop := l ≠ [] ∧ AllFinite l

/-- The vector is not the zero vector. -/
def NonZero (v : List XReal) : Prop := ∃ x ∈ v, x ≠ fin 0

/-- A radius greater than zero (`+inf` included). -/
def PositiveRadius : XReal → Prop
  | fin r => 0 < r
  | posInf => True
  | negInf => False
  | nan => False

/-- What the comparison of a number type must satisfy for `np.clip(x, -1, 1)` to work: `-1 < -1`,
`1 < 1` and `1 < -1` are false.  (No assumption on arithmetic, none on NaN.) -/
def SaneUnit (K : Type) [PyNum K] : Prop :=
  PyNum.lt (PyNum.ofInt (-1) : K) (PyNum.ofInt (-1)) = false ∧ PyNum.lt (one : K) one = false ∧
    PyNum.lt (one : K) (PyNum.ofInt (-1)) = false

end SkSpatial
