import Verif.Model.Numpy
/-! # `src/skspatial/_functions.py` and `src/skspatial/transformation.py` -/

namespace SkSpatial
variable {K : Type} [PyNum K]

/-- `_contains_point(obj, point, **kwargs)` (_functions.py:14-41), given `obj.distance_point`. -/
def containsPointFn (distancePoint : List K → Res K) (tol : Tol K) (point : List K) : Res Bool := do
  let d ← distancePoint point
  isclose tol d zero

/-- `_sum_squares(obj, points)` (_functions.py:44-48), given `obj.distance_point`. -/
def sumSquaresFn (distancePoint : List K → Res K) (points : List (List K)) : Res K := do
  checkRows points
  let ds ← points.mapM distancePoint
  pure (sumL (ds.map sq))

/-- `_mesh_to_points(X, Y, Z)` (_functions.py:51-53): ravel the three arrays in C order and stack them
as columns. -/
def meshToPoints (X Y Z : List (List K)) : List (List K) :=
  List.zipWith (fun x (yz : K × K) => [x, yz.1, yz.2]) X.flatten (List.zip Y.flatten Z.flatten)

/-- `_solve_quadratic(a, b, c, n_digits)` (_functions.py:73-134); `none` is the default.  The test
`if n_digits:` is false for `None` *and for 0*. -/
def solveQuadratic (a b c : K) (nDigits : Option Int) : Res (K × K) :=
  let r : K → K := match nDigits with
    | none => id
    | some n => if n = 0 then id else roundDigits n
  let a := r a
  let b := r b
  let c := r c
  if a ==. zero then .error (.valueError "The coefficient `a` must be non-zero.")
  else
    let discriminant := sq b -. PyNum.ofInt 4 *. a *. c
    if discriminant <. zero then .error (.valueError "The discriminant must not be negative.")
    else do
      let root ← mathSqrt discriminant
      pure ((PyNum.neg b +. PyNum.ofInt (-1) *. root) /. (two *. a),
            (PyNum.neg b +. PyNum.ofInt 1 *. root) /. (two *. a))

/-- `transform_coordinates(points, point_origin, vectors_basis)`
(src/skspatial/transformation.py:10-56). -/
def transformCoordinates (points : List (List K)) (origin : List K) (basis : List (List K)) :
    Res (List (List K)) := do
  checkRows points
  checkRows basis
  let vs ← points.mapM fun p => vsub p origin
  vs.mapM fun v => basis.mapM fun b => dot v b

end SkSpatial
