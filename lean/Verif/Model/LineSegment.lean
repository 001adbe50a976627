import Verif.Model.Line
/-! # `src/skspatial/objects/line_segment.py` -/

namespace SkSpatial
variable {K : Type} [PyNum K]
namespace LineSegment

/-- `LineSegment(point_a, point_b)` (line_segment.py:53-58). -/
def new (a b : List K) : Res (LineSegment K) := do
  let a ← new1D a
  let b ← new1D b
  let close ← arrIsClose Tol.default a b
  if close then .error (.valueError "The endpoints must not be equal.") else pure ⟨a, b⟩

/-- `segment.contains_point(point, **kwargs)` (line_segment.py:66-103). -/
def containsPoint (tol : Tol K) (s : LineSegment K) (point : List K) : Res Bool := do
  let va ← Vec.fromPoints point s.pointA
  let vb ← Vec.fromPoints point s.pointB
  let za ← Vec.isZero tol va
  let z ← (if za then pure true else Vec.isZero tol vb)
  if z then pure true
  else do
    let similarity ← Vec.cosineSimilarity va vb
    isclose tol similarity (PyNum.ofInt (-1))

/-- `segment.intersect_line_segment(other, **kwargs)` (line_segment.py:105-155).  The keywords are
those of `Line.intersect_line`. -/
def intersectLineSegment [NumpyExt K] (s other : LineSegment K) (checkCoplanar : Bool) (tol : Tol K) :
    Res (List K) := do
  let la ← Line.fromPoints s.pointA s.pointB
  let lb ← Line.fromPoints other.pointA other.pointB
  let p ← Line.intersectLine la lb checkCoplanar tol
  let onA ← containsPoint Tol.default s p
  let onB ← containsPoint Tol.default other p
  if !(onA && onB) then .error (.valueError "The line segments must intersect.") else pure p

end LineSegment
end SkSpatial
