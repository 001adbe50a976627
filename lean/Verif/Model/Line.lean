import Verif.Model.Objects
import Verif.Model.Points
import Verif.Model.Functions
/-! # `src/skspatial/objects/line.py` and `src/skspatial/objects/_base_line_plane.py` -/

namespace SkSpatial
variable {K : Type} [PyNum K]

/-- `_BaseLinePlane.__init__` (_base_line_plane.py:17-27) with the default keywords: the subclasses
pass none (line.py:84-85, plane.py:85-86).  Returns the validated point and vector. -/
def newLinePlane (point vector : List K) : Res (List K × List K) := do
  let p ← new1D point
  let v ← new1D vector
  if p.length ≠ v.length then
    .error (.valueError "The point and vector must have the same dimension.")
  else do
    let z ← Vec.isZero Tol.default v
    if z then .error (.valueError "The vector must not be the zero vector.")
    else pure (p, v)

namespace Line

/-- `Line(point, direction)` (line.py:84-87). -/
def new (point direction : List K) : Res (Line K) := do
  let (p, v) ← newLinePlane point direction
  pure ⟨p, v⟩

/-- `line.dimension` (_base_line_plane.py:27). -/
def dimension (l : Line K) : Nat := l.point.length

/-- `Line.from_points(point_a, point_b)` (line.py:89-119). -/
def fromPoints (a b : List K) : Res (Line K) := do
  let ab ← Vec.fromPoints a b
  new a ab

/-- `Line.from_slope(slope, y_intercept)` (line.py:121-164). -/
def fromSlope (slope yIntercept : K) : Res (Line K) :=
  new [zero, yIntercept] [one, slope]

/-- `line.to_point(t)` (line.py:230-265). -/
def toPoint (l : Line K) (t : K) : Res (List K) := vadd l.point (smul t l.direction)

/-- `line.is_coplanar(other, tol=...)` (line.py:166-228). -/
def isCoplanar [NumpyExt K] (tol : Option K) (l : Line K) (other : Obj K) : Res Bool :=
  match other with
  | .line m => do
    let p2 ← toPoint l one
    let p4 ← toPoint m one
    let ps ← newPoints [l.point, p2, m.point, p4]
    Pts.areCoplanar tol ps
  | _ => .error (.typeError "The input must also be a line.")

/-- `line.project_point(point)` (line.py:267-299). -/
def projectPoint (l : Line K) (point : List K) : Res (List K) := do
  let v ← Vec.fromPoints l.point point
  let w ← Vec.projectVector l.direction v
  vadd l.point w

/-- `line.project_points(points)` (line.py:301-339). -/
def projectPoints (l : Line K) (points : List (List K)) : Res (List (List K)) := do
  checkRows points
  let vectors ← points.mapM fun p => vsub p l.point
  let u ← Vec.unit l.direction
  let dots ← vectors.mapM fun v => dot v u
  let rows ← dots.mapM fun d => vadd (smul d u) l.point
  newPoints rows

/-- `line.project_vector(vector)` (line.py:341-365). -/
def projectVector (l : Line K) (vector : List K) : Res (List K) :=
  Vec.projectVector l.direction vector

/-- `line.side_point(point)` (line.py:367-409). -/
def sidePoint (l : Line K) (point : List K) : Res Int := do
  let v ← Vec.fromPoints l.point point
  Vec.sideVector l.direction v

/-- `line.distance_point(point)` (line.py:411-446). -/
def distancePoint (l : Line K) (point : List K) : Res K := do
  let q ← projectPoint l point
  let q ← wrapped "distance_point" q
  Pt.distancePoint q point

/-- `line.distance_points(points)` (line.py:448-483). -/
def distancePoints (l : Line K) (points : List (List K)) : Res (List K) := do
  let proj ← projectPoints l points
  let diffs ← (List.zip points proj).mapM fun pq => vsub pq.1 pq.2
  pure (diffs.map normv)

/-- `line.contains_point(point, **kwargs)` (_base_line_plane.py:38-40). -/
def containsPoint (tol : Tol K) (l : Line K) (point : List K) : Res Bool :=
  containsPointFn (distancePoint l) tol point

/-- `line.sum_squares(points)` (_base_line_plane.py:101-102). -/
def sumSquares (l : Line K) (points : List (List K)) : Res K := sumSquaresFn (distancePoint l) points

/-- `line.is_close(other, **kwargs)` (_base_line_plane.py:42-99). -/
def isClose (tol : Tol K) (l : Line K) (other : Obj K) : Res Bool :=
  match other with
  | .line m => do
    let c ← containsPoint tol l m.point
    let p ← Vec.isParallel tol l.direction m.direction
    pure (c && p)
  | _ => .error (.typeError "The input must have the same type as the object.")

/-- `line.distance_line(other)` (line.py:485-549). -/
def distanceLine [NumpyExt K] (l other : Line K) : Res K := do
  let par ← Vec.isParallel Tol.default l.direction other.direction
  if par then distancePoint l other.point
  else do
    let cop ← isCoplanar none l (.line other)
    if cop then pure zero
    else do
      let ab ← Vec.fromPoints l.point other.point
      let perp ← Vec.cross l.direction other.direction
      let d ← dot ab perp
      pure (PyNum.abs d /. Vec.norm perp)

/-- `line.intersect_line(other, check_coplanar, **kwargs)` (line.py:551-654).  The keywords reach
`is_parallel` only. -/
def intersectLine [NumpyExt K] (l other : Line K) (checkCoplanar : Bool) (tol : Tol K) :
    Res (List K) := do
  if dimension l ≠ dimension other then
    .error (.valueError "The lines must have the same dimension.")
  else if dimension l > 3 ∨ dimension other > 3 then
    .error (.valueError "The line dimension cannot be greater than 3.")
  else do
    let par ← Vec.isParallel tol l.direction other.direction
    if par then .error (.valueError "The lines must not be parallel.")
    else do
      let bad ← (do
        if checkCoplanar then do
          let c ← isCoplanar none l (.line other)
          pure (!c)
        else pure false)
      if bad then .error (.valueError "The lines must be coplanar.")
      else do
        let ab ← Vec.fromPoints l.point other.point
        let perp ← Vec.cross l.direction other.direction
        let abx ← Vec.cross ab other.direction
        let num ← dot abx perp
        let denom := sq (Vec.norm perp)
        vadd l.point (smul (num /. denom) l.direction)

/-- `Line.best_fit(points, tol, return_error=True, full_matrices=...)` (line.py:656-734): the line and
the error; with the default `return_error=False` only the line. -/
def bestFit [NumpyExt K] (points : List (List K)) (tol : Option K) (fullMatrices : Bool) :
    Res (Line K × K) := do
  let ps ← newPoints points
  let conc ← Pts.areConcurrent tol ps
  if conc then .error (.valueError "The points must not be concurrent.")
  else do
    let (centered, centroid) ← Pts.meanCenter ps
    let (_, S, Vh) := NumpyExt.svd fullMatrices centered
    let direction := Vh.headD []
    let line ← new centroid direction
    pure (line, sumL ((S.drop 1).map sq))

/-- `line.transform_points(points)` (line.py:736-785). -/
def transformPoints (l : Line K) (points : List (List K)) : Res (List K) := do
  let u ← Vec.unit l.direction
  let cols ← transformCoordinates points l.point [u]
  pure cols.flatten

end Line
end SkSpatial
