import Verif.Model.Array
/-!
# Linear algebra delegated to NumPy and SciPy

These routines are LAPACK / SciPy code outside the repository.  They are parameters of the model; what
the theorems assume about them is the contract `LawfulNumpy` in `Spec/Numpy.lean`.
-/

namespace SkSpatial
variable {K : Type} [PyNum K]

/-- The external numerical routines.  A matrix is the list of its rows. -/
class NumpyExt (K : Type) where
  /-- `np.linalg.matrix_rank(A, tol=tol)` (called at src/skspatial/objects/points.py:236). -/
  matrixRank : (tol : Option K) → List (List K) → Nat
  /-- `np.linalg.svd(A, full_matrices=...)`: `U`, `S`, `Vh` (called at line.py:724, plane.py:784). -/
  svd : (fullMatrices : Bool) → List (List K) → List (List K) × List K × List (List K)
  /-- `np.linalg.solve(A, b)` (called at plane.py:697). -/
  solve : List (List K) → List K → Res (List K)
  /-- The solution `np.linalg.lstsq(A, b, rcond=None)[0]` (called at circle.py:459, sphere.py:239). -/
  lstsq : List (List K) → List K → List K
  /-- `scipy.optimize.minimize(f, x0, method="Powell").x` in two variables (called at
  cylinder.py:531-535). -/
  minimizePowell : (K → K → K) → K × K → K × K

/-- A shape check NumPy makes when it converts a list of rows: at least one row and equal lengths.
(An empty list would be a 1D array; the batch methods then raise.) -/
def checkRows (rows : List (List K)) : Res Unit :=
  match rows with
  | [] => .error (.valueError "operands could not be broadcast together")
  | r :: rs =>
    if rs.all fun s => s.length = r.length then .ok ()
    else .error (.valueError "setting an array element with a sequence.")

/-- Column `j` of a matrix given by rows. -/
def column (rows : List (List K)) (j : Nat) : List K := rows.map fun r => r.getD j zero

/-- `A.T`. -/
def transposeRows (rows : List (List K)) : List (List K) :=
  (List.range (rowDim rows)).map fun j => column rows j

/-- `np.dot(A, x)` for a matrix and a vector. -/
def matVec (A : List (List K)) (x : List K) : List K := A.map fun r => dotv r x

/-- `np.dot(A, B)` for two matrices. -/
def matMul (A B : List (List K)) : List (List K) :=
  A.map fun r => (List.range (rowDim B)).map fun j => dotv r (column B j)

/-- `np.dot(np.reshape(x, (n, 1)), np.reshape(y, (1, m)))`. -/
def outer (x y : List K) : List (List K) := x.map fun a => y.map fun b => a *. b

/-- `A + B` for matrices of equal shape. -/
def matAdd (A B : List (List K)) : List (List K) := List.zipWith (List.zipWith PyNum.add) A B

/-- `A - B` for matrices of equal shape. -/
def matSub (A B : List (List K)) : List (List K) := List.zipWith (List.zipWith PyNum.sub) A B

/-- `np.identity(n)`. -/
def identity (n : Nat) : List (List K) :=
  (List.range n).map fun i => (List.range n).map fun j => if i = j then one else zero

/-- The zero matrix of shape `(m, n)`. -/
def zeros (m n : Nat) : List (List K) := List.replicate m (List.replicate n zero)

/-- `np.trace(A)`. -/
def trace (A : List (List K)) : K :=
  sumL ((List.range A.length).map fun i => (A.getD i []).getD i zero)

end SkSpatial
