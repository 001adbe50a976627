import Verif.Model.Line
/-! # `src/skspatial/objects/plane.py` -/

namespace SkSpatial
variable {K : Type} [PyNum K]
namespace Plane

/-- `Plane(point, normal)` (plane.py:85-87, _base_line_plane.py:17-27). -/
def new (point normal : List K) : Res (Plane K) := do
  let (p, v) ← newLinePlane point normal
  pure ⟨p, v⟩

/-- `plane.dimension` (_base_line_plane.py:27). -/
def dimension (P : Plane K) : Nat := P.point.length

/-- `Plane.from_vectors(point, vector_a, vector_b, **kwargs)` (plane.py:89-139). -/
def fromVectors (tol : Tol K) (point a b : List K) : Res (Plane K) := do
  let a ← new1D a
  let par ← Vec.isParallel tol a b
  if par then .error (.valueError "The vectors must not be parallel.")
  else do
    let n ← Vec.cross a b
    let p ← new1D point
    let p ← setDimension 3 p
    new p n

/-- `Plane.from_points(point_a, point_b, point_c, tol=...)` (plane.py:141-189). -/
def fromPoints [NumpyExt K] (tol : Option K) (a b c : List K) : Res (Plane K) := do
  let ps ← newPoints [a, b, c]
  let col ← Pts.areCollinear tol ps
  if col then .error (.valueError "The points must not be collinear.")
  else do
    let ab ← Vec.fromPoints a b
    let ac ← Vec.fromPoints a c
    fromVectors Tol.default a ab ac

/-- `plane.cartesian()` (plane.py:191-237). -/
def cartesian (P : Plane K) : Res (K × K × K × K) := do
  if dimension P > 3 then .error (.valueError "The plane dimension must be <= 3.")
  else do
    let n ← setDimension 3 P.normal
    let d ← dot P.normal P.point
    match n with
    | [a, b, c] => pure (a, b, c, PyNum.neg d)
    | _ => .error (.valueError "unreachable: the normal is 3D here")

/-- `plane.project_point(point)` (plane.py:239-272). -/
def projectPoint (P : Plane K) (point : List K) : Res (List K) := do
  let v ← Vec.fromPoints point P.point
  let w ← Vec.projectVector P.normal v
  let p ← new1D point
  vadd p w

/-- `plane.project_points(points)` (plane.py:274-303). -/
def projectPoints (P : Plane K) (points : List (List K)) : Res (List (List K)) := do
  checkRows points
  let vectors ← points.mapM fun p => vsub P.point p
  let u ← Vec.unit P.normal
  let dots ← vectors.mapM fun v => dot v u
  let rows ← (List.zip dots points).mapM fun dp => vadd (smul dp.1 u) dp.2
  newPoints rows

/-- `plane.project_vector(vector)` (plane.py:305-332). -/
def projectVector (P : Plane K) (vector : List K) : Res (List K) := do
  let q ← vadd P.point vector
  let p ← projectPoint P q
  Vec.fromPoints P.point p

/-- `plane.project_line(line, **kwargs)` (plane.py:334-382). -/
def projectLine (tol : Tol K) (P : Plane K) (l : Line K) : Res (Line K) := do
  let par ← Vec.isParallel tol P.normal l.direction
  if par then .error (.valueError "The line and plane must not be perpendicular.")
  else do
    let p ← projectPoint P l.point
    let perp ← Vec.isPerpendicular tol P.normal l.direction
    if perp then Line.new p l.direction
    else do
      let v ← projectVector P l.direction
      Line.new p v

/-- `plane.distance_point_signed(point)` (plane.py:384-422). -/
def distancePointSigned (P : Plane K) (point : List K) : Res K := do
  let v ← Vec.fromPoints P.point point
  Vec.scalarProjection P.normal v

/-- `plane.distance_points_signed(points)` (plane.py:424-454). -/
def distancePointsSigned (P : Plane K) (points : List (List K)) : Res (List K) := do
  checkRows points
  let vectors ← points.mapM fun p => vsub p P.point
  let u ← Vec.unit P.normal
  vectors.mapM fun v => dot v u

/-- `plane.distance_point(point)` (plane.py:456-490). -/
def distancePoint (P : Plane K) (point : List K) : Res K := do
  let d ← distancePointSigned P point
  pure (PyNum.abs d)

/-- `plane.distance_points(points)` (plane.py:492-520). -/
def distancePoints (P : Plane K) (points : List (List K)) : Res (List K) := do
  let ds ← distancePointsSigned P points
  pure (ds.map PyNum.abs)

/-- `plane.side_point(point)` (plane.py:522-565). -/
def sidePoint (P : Plane K) (point : List K) : Res Int := do
  let d ← distancePointSigned P point
  intSign d

/-- `plane.contains_point(point, **kwargs)` (_base_line_plane.py:38-40). -/
def containsPoint (tol : Tol K) (P : Plane K) (point : List K) : Res Bool :=
  containsPointFn (distancePoint P) tol point

/-- `plane.sum_squares(points)` (_base_line_plane.py:101-102). -/
def sumSquares (P : Plane K) (points : List (List K)) : Res K := sumSquaresFn (distancePoint P) points

/-- `plane.is_close(other, **kwargs)` (_base_line_plane.py:42-99). -/
def isClose (tol : Tol K) (P : Plane K) (other : Obj K) : Res Bool :=
  match other with
  | .plane Q => do
    let c ← containsPoint tol P Q.point
    let p ← Vec.isParallel tol P.normal Q.normal
    pure (c && p)
  | _ => .error (.typeError "The input must have the same type as the object.")

/-- `plane.intersect_line(line, **kwargs)` (plane.py:567-626). -/
def intersectLine (tol : Tol K) (P : Plane K) (l : Line K) : Res (List K) := do
  let perp ← Vec.isPerpendicular tol P.normal l.direction
  if perp then .error (.valueError "The line and plane must not be parallel.")
  else do
    let v ← Vec.fromPoints P.point l.point
    let nv ← dot P.normal v
    let num := PyNum.neg nv
    let denom ← dot P.normal l.direction
    vadd l.point (smul (num /. denom) l.direction)

/-- `plane.intersect_plane(other, **kwargs)` (plane.py:628-702).  `np.block` raises `ValueError` unless
both normals are 3D. -/
def intersectPlane [NumpyExt K] (tol : Tol K) (P Q : Plane K) : Res (Line K) := do
  let par ← Vec.isParallel tol P.normal Q.normal
  if par then .error (.valueError "The planes must not be parallel.")
  else
    match P.normal, Q.normal with
    | [a0, a1, a2], [b0, b1, b2] => do
      let matrix : List (List K) :=
        [[two, zero, zero, a0, b0],
         [zero, two, zero, a1, b1],
         [zero, zero, two, a2, b2],
         [a0, a1, a2, zero, zero],
         [b0, b1, b2, zero, zero]]
      let dotA ← dot P.point P.normal
      let dotB ← dot Q.point Q.normal
      let solution ← NumpyExt.solve matrix [zero, zero, zero, dotA, dotB]
      let p ← new1D (solution.take 3)
      let d ← Vec.cross P.normal Q.normal
      Line.new p d
    | _, _ => .error (.valueError "mismatching array shapes in block")

/-- `Plane.best_fit(points, tol, return_error=True, full_matrices=...)` (plane.py:704-793): the plane
and the error; with the default `return_error=False` only the plane. -/
def bestFit [NumpyExt K] (points : List (List K)) (tol : Option K) (fullMatrices : Bool) :
    Res (Plane K × K) := do
  let ps ← newPoints points
  if rowDim ps ≠ 3 then .error (.valueError "The points must be 3D.")
  else do
    let col ← Pts.areCollinear tol ps
    if col then .error (.valueError "The points must not be collinear.")
    else do
      let (centered, centroid) ← Pts.meanCenter ps
      let (U, S, _) := NumpyExt.svd fullMatrices (transposeRows centered)
      -- U[:, 2]
      if rowDim U ≤ 2 then .error (.indexError "index 2 is out of bounds for axis 1")
      else do
        let normal ← new1D (column U 2)
        let plane ← new centroid normal
        pure (plane, sumL ((S.drop 2).map sq))

/-- `plane.to_mesh(lims_x, lims_y)` (plane.py:795-853): the arrays `X`, `Y`, `Z` as lists of rows. -/
def toMesh (P : Plane K) (limsX limsY : List K) :
    Res (List (List K) × List (List K) × List (List K)) := do
  let (a, b, c, d) ← cartesian P
  match P.point with
  | xc :: yc :: _ =>
    let valuesX := limsX.map fun l => xc +. l
    let valuesY := limsY.map fun l => yc +. l
    -- np.meshgrid
    let X := valuesY.map fun _ => valuesX
    let Y := valuesY.map fun y => valuesX.map fun _ => y
    let comb := fun (p q r : K) =>
      List.zipWith (List.zipWith fun x y => PyNum.neg (p *. x +. q *. y +. d) /. r) X Y
    if !(c ==. zero) then pure (X, Y, comb a b c)
    else if !(b ==. zero) then pure (X, comb a c b, Y)
    else pure (comb b c a, X, Y)
  | _ => .error (.valueError "not enough values to unpack (expected 2, got 1)")

/-- `plane.to_points(lims_x=..., lims_y=...)` (src/skspatial/objects/_mixins.py:14-54). -/
def toPoints (P : Plane K) (limsX limsY : List K) : Res (List (List K)) := do
  let (X, Y, Z) ← toMesh P limsX limsY
  newPoints (meshToPoints X Y Z)

end Plane
end SkSpatial
