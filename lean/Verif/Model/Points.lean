import Verif.Model.Vector
import Verif.Model.Numpy
/-! # `src/skspatial/objects/points.py` -/

namespace SkSpatial
variable {K : Type} [PyNum K]

/-- Lexicographic order on rows (the order `np.unique(axis=0)` sorts by). -/
def rowLt : List K → List K → Bool
  | [], [] => false
  | [], _ :: _ => true
  | _ :: _, [] => false
  | x :: xs, y :: ys => x <. y || (x ==. y && rowLt xs ys)

/-- Equality of two rows, entry by entry. -/
def rowEq (a b : List K) : Bool := a.length = b.length && (List.zip a b).all fun p => p.1 ==. p.2

/-- Insert a row into a sorted list of rows, dropping it when an equal row is already there. -/
def insertRow (r : List K) : List (List K) → List (List K)
  | [] => [r]
  | s :: rest =>
    if rowEq r s then s :: rest
    else if rowLt r s then r :: s :: rest
    else s :: insertRow r rest

/-- `np.unique(rows, axis=0)`: the sorted distinct rows (NumPy's sort is replaced by insertion). -/
def npUnique (rows : List (List K)) : List (List K) := rows.foldr insertRow []

namespace Pts

/-- `Points.unique()` (points.py:69-91). -/
def unique (ps : List (List K)) : Res (List (List K)) := newPoints (npUnique ps)

/-- `self.mean(axis=0)`: for every column, its sum (in floats) divided by the number of rows. -/
def colMeans (ps : List (List K)) : List K :=
  (List.range (rowDim ps)).map fun j => sumL (toFloats (column ps j)) /. PyNum.ofInt ps.length

/-- `Points.centroid()` (points.py:93-112). -/
def centroid (ps : List (List K)) : Res (List K) := new1D (colMeans ps)

/-- `Points.mean_center(return_centroid=True)` (points.py:114-154): the pair; with the default
`return_centroid=False` the first component.  `self - centroid` subtracts from every row. -/
def meanCenter (ps : List (List K)) : Res (List (List K) × List K) := do
  let c ← centroid ps
  let centered ← ps.mapM fun p => vsub p c
  pure (centered, c)

/-- `x.max()` of a non-empty array of norms (NaN-free). -/
def maxL : List K → K
  | [] => zero
  | [x] => x
  | x :: xs => let m := maxL xs; if x <. m then m else x

/-- `Points.normalize_distance()` (points.py:156-188): the values of `self / max`. -/
def normalizeDistance (ps : List (List K)) : List (List K) :=
  let m := maxL (ps.map normv)
  ps.map fun p => sdiv p m

/-- `Points.affine_rank(tol=...)` (points.py:190-236); `none` is NumPy's default tolerance. -/
def affineRank [NumpyExt K] (tol : Option K) (ps : List (List K)) : Res Nat := do
  let u ← unique ps
  let (centered, _) ← meanCenter u
  pure (NumpyExt.matrixRank tol centered)

/-- `Points.are_concurrent(tol=...)` (points.py:238-263). -/
def areConcurrent [NumpyExt K] (tol : Option K) (ps : List (List K)) : Res Bool := do
  let r ← affineRank tol ps
  pure (decide (r = 0))

/-- `Points.are_collinear(tol=...)` (points.py:265-293). -/
def areCollinear [NumpyExt K] (tol : Option K) (ps : List (List K)) : Res Bool := do
  let r ← affineRank tol ps
  pure (decide (r ≤ 1))

/-- `Points.are_coplanar(tol=...)` (points.py:295-323). -/
def areCoplanar [NumpyExt K] (tol : Option K) (ps : List (List K)) : Res Bool := do
  let r ← affineRank tol ps
  pure (decide (r ≤ 2))

end Pts
end SkSpatial
