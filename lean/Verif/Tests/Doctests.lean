import Verif.Inst.Float
import Verif.Model.Vector
import Verif.Model.Points
import Verif.Model.Functions
import Verif.Model.Line
import Verif.Model.Plane
import Verif.Model.Sphere
import Verif.Model.Cylinder
import Verif.Model.LineSegment
import Verif.Model.Triangle
import Verif.Model.Measurement
/-!
# The doctests of the repository, run on the model

These are tests of the fidelity of the model, not proofs: the docstrings of `/repo/src/skspatial` state inputs and
expected outputs, and the model, instantiated with binary64 arithmetic, is evaluated on them.  A wrong output is a
build error.  Not included: doctests about `repr`, Matplotlib, and the ones of `best_fit` (see `Tests/Unit.lean`).
-/

namespace SkSpatial.Doctests

abbrev F := Float

/-- Agreement to the three (or fewer) decimals a docstring shows. -/
def near (x y : F) : Bool := (x - y).abs < 0.006
def exactly (x y : F) : Bool := x == y
def nearL (x y : List F) : Bool := x.length == y.length && (List.zipWith near x y).all id
def nearM (x y : List (List F)) : Bool := x.length == y.length && (List.zipWith nearL x y).all id

def ok {α : Type} (r : Res α) (p : α → Bool) : Bool := match r with | .ok a => p a | .error _ => false
def val (r : Res F) (y : F) : Bool := ok r (near · y)
def vec (r : Res (List F)) (y : List F) : Bool := ok r (nearL · y)
def mat (r : Res (List (List F))) (y : List (List F)) : Bool := ok r (nearM · y)
def yes (r : Res Bool) : Bool := ok r id
def no (r : Res Bool) : Bool := ok r (!·)
def raises {α : Type} (r : Res α) (msg : String) : Bool :=
  match r with | .error (.valueError m) => m == msg | _ => false
def raisesType {α : Type} (r : Res α) (msg : String) : Bool :=
  match r with | .error (.typeError m) => m == msg | _ => false
def line (r : Res (Line F)) (p d : List F) : Bool := ok r fun l => nearL l.point p && nearL l.direction d
def plane (r : Res (Plane F)) (p d : List F) : Bool := ok r fun l => nearL l.point p && nearL l.normal d
def circle (r : Res (Circle F)) (p : List F) (x : F) : Bool := ok r fun c => nearL c.point p && near c.radius x
def pair (r : Res (List F × List F)) (p q : List F) : Bool := ok r fun x => nearL x.1 p && nearL x.2 q
def deg (x : F) : F := x * 180 / 3.141592653589793
def nan : F := 0 / 0
def dflt : Tol F := Tol.default

/-! ### vector.py, point.py -/
#guard raises (new1D ([] : List F)) "The array must not be empty."
#guard raises (new1D [1, 2, nan]) "The values must all be finite."
#guard raises (newArray1D (⟨[2, 2], [1, 2, 3, 4]⟩ : NDArray F)) "The array must be 1D."
#guard vec (Vec.fromPoints [0, 0] [1, 0]) [1, 0]
#guard vec (Vec.fromPoints [5, 2] [-2, 8]) [-7, 6]
#guard vec (Vec.fromPoints [3, 1, 1] [7, 7, 0]) [4, 6, -1]
#guard near (Vec.norm [1, 2, 3]) 3.742
#guard near (Vec.normOrd (.num 1) [1, 2, 3]) 6
#guard near (Vec.normOrd (.num 0) [1, 2, 3]) 3
#guard vec (Vec.unit [1, 0]) [1, 0]
#guard vec (Vec.unit [-20, 0]) [-1, 0]
#guard vec (Vec.unit [1, 1]) [0.707, 0.707]
#guard vec (Vec.unit [1, 1, 1]) [0.577, 0.577, 0.577]
#guard raises (Vec.unit ([0, 0] : List F)) "The magnitude must not be zero."
#guard yes (Vec.isZero dflt [0, 0])
#guard no (Vec.isZero dflt [1, 0])
#guard no (Vec.isZero dflt [0, 0, 1e-4])
#guard yes (Vec.isZero ⟨1e-9, 1e-3⟩ [0, 0, 1e-4])
#guard vec (Vec.cross [1, 0] [0, 1]) [0, 0, 1]
#guard vec (Vec.cross [2, 5] [1, 1]) [0, 0, -3]
#guard vec (Vec.cross [1, 1, 1] [0, 1, 0]) [-1, 0, 1]
#guard val (Vec.cosineSimilarity [1, 0] [0, 1]) 0
#guard val (Vec.cosineSimilarity [30, 0] [0, 20]) 0
#guard val (Vec.cosineSimilarity [1, 0] [-1, 0]) (-1)
#guard val (Vec.cosineSimilarity [1, 0] [1, 1]) 0.707
#guard raises (Vec.cosineSimilarity [0, 0] ([1, 1] : List F)) "The vectors must have non-zero magnitudes."
#guard ok (Vec.angleBetween [1, 0] [1, 0]) (exactly · 0)
#guard ok (Vec.angleBetween [1, 1, 1] [1, 1, 1]) (exactly · 0)
#guard ok (Vec.angleBetween [1, 0] [1, 1]) fun a => near (deg a) 45
#guard ok (Vec.angleBetween [1, 0] [-2, 0]) fun a => near (deg a) 180
#guard ok (Vec.angleSigned [1, 0] [1, 0]) (exactly · 0)
#guard ok (Vec.angleSigned [1, 0] [0, 1]) fun a => near (deg a) 90
#guard ok (Vec.angleSigned [1, 0] [0, -1]) fun a => near (deg a) (-90)
#guard raises (Vec.angleSigned [1, 0, 0] ([0, -1, 0] : List F)) "The vectors must be 2D."
#guard ok (Vec.angleSigned3d [1, 0, 0] [0, -1, 0] [0, 0, 2]) fun a => near (deg a) (-90)
#guard ok (Vec.angleSigned3d [1, 0, 0] [0, -1, 0] [0, 0, -5]) fun a => near (deg a) 90
#guard raises (Vec.angleSigned3d [1, 0] [1, 0] ([1, 0, 0] : List F)) "The vectors must be 3D."
#guard raises (Vec.angleSigned3d [1, 0, 4] [1, 0, 5] ([1, 0] : List F)) "The vectors must be 3D."
#guard yes (Vec.isPerpendicular dflt [0, 1] [1, 0])
#guard no (Vec.isPerpendicular dflt [-1, 5] [3, 4])
#guard yes (Vec.isPerpendicular dflt [2, 0, 0] [0, 0, 2])
#guard yes (Vec.isPerpendicular dflt [0, 0, 0] [1, 2, 3])
#guard no (Vec.isParallel dflt [0, 1] [1, 0])
#guard yes (Vec.isParallel dflt [1, 1] [1, 1])
#guard yes (Vec.isParallel dflt [-1, 5] [2, -10])
#guard yes (Vec.isParallel dflt [1, 2, 3] [3, 6, 9])
#guard yes (Vec.isParallel dflt [1, 2, 3, 4] [-2, -4, -6, -8])
#guard yes (Vec.isParallel dflt [1, 2, 3] [0, 0, 0])
#guard ok (Vec.sideVector ([0, 1] : List F) [0, 2]) (· == 0)
#guard ok (Vec.sideVector ([0, 1] : List F) [0, -5]) (· == 0)
#guard ok (Vec.sideVector ([0, 1] : List F) [1, 1]) (· == 1)
#guard ok (Vec.sideVector ([0, 1] : List F) [1, -10]) (· == 1)
#guard ok (Vec.sideVector ([0, 1] : List F) [-3, 4]) (· == -1)
#guard raises (Vec.sideVector [1] ([2] : List F)) "The vectors must be 2D."
#guard raises (Vec.sideVector [1, 0, 0] ([1, 2, 3] : List F)) "The vectors must be 2D."
#guard val (Vec.scalarProjection [0, 1] [2, 1]) 1
#guard val (Vec.scalarProjection [-1, -1] [1, 0]) (-0.707)
#guard val (Vec.scalarProjection [0, 100] [9, 5]) 5
#guard val (Vec.scalarProjection [5, 0] [-10, 3]) (-10)
#guard vec (Vec.projectVector [0, 1] [2, 1]) [0, 1]
#guard vec (Vec.projectVector [0, 100] [2, 1]) [0, 1]
#guard vec (Vec.projectVector [0, 1] [9, 5]) [0, 5]
#guard vec (Vec.projectVector [0, 100] [9, 5]) [0, 5]
#guard vec (Vec.differentDirection dflt [1]) [-1]
#guard vec (Vec.differentDirection dflt [100]) [-1]
#guard vec (Vec.differentDirection dflt [-100]) [1]
#guard vec (Vec.differentDirection dflt [1, 0]) [0, 1]
#guard vec (Vec.differentDirection dflt [1, 1]) [1, 0]
#guard vec (Vec.differentDirection dflt [1, 1, 1, 1]) [1, 0, 0, 0]
#guard val (Pt.distancePoint [1, 2] [1, 2]) 0
#guard val (Pt.distancePoint [1, 2] [-1, 2]) 2
#guard val (Pt.distancePoint [1, 2, 0] [1, 2, 3]) 3

/-! ### _base_array.py -/
#guard nearL (roundValues 2 [1, 2, 3.532]) [1, 2, 3.53]
#guard vec (setDimension 2 [1]) [1, 0]
#guard vec (setDimension 4 [1, 2]) [1, 2, 0, 0]
#guard raises (setDimension 2 ([1, 2, 3] : List F)) "The desired dimension cannot be less than the current dimension."
#guard mat (setDimension2D 3 [[1, 0], [2, 3]]) [[1, 0, 0], [2, 3, 0]]
#guard mat (setDimension2D 5 [[1, 0], [2, 3]]) [[1, 0, 0, 0, 0], [2, 3, 0, 0, 0]]
#guard raises (setDimension2D 2 ([[1, 2, 3], [4, 5, 6]] : List (List F)))
  "The desired dimension cannot be less than the current dimension."

/-! ### points.py -/
#guard raises (newPoints ([[]] : List (List F))) "The array must not be empty."
#guard raises (newPoints [[1, 2], [1, nan]]) "The values must all be finite."
#guard raises (newArray2D (⟨[3], [1, 2, 3]⟩ : NDArray F)) "The array must be 2D."
#guard mat (Pts.unique [[1, 2, 3], [2, 3, 4], [1, 2, 3]]) [[1, 2, 3], [2, 3, 4]]
#guard vec (Pts.centroid [[1, 2, 3], [2, 2, 3]]) [1.5, 2, 3]
#guard ok (Pts.meanCenter [[4, 4, 4], [2, 2, 2]]) fun r =>
  nearM r.1 [[1, 1, 1], [-1, -1, -1]] && nearL r.2 [3, 3, 3] && vec (Pts.centroid r.1) [0, 0, 0]
#guard nearM (Pts.normalizeDistance [[1, 2, 3], [4, 5, 6], [7, 8, 9]])
  [[0.072, 0.144, 0.215], [0.287, 0.359, 0.431], [0.503, 0.574, 0.646]]
#guard ok (Pts.meanCenter [[1, 2, 3], [4, 5, 6], [7, 8, 9]]) fun r => nearM (Pts.normalizeDistance r.1)
  [[-0.577, -0.577, -0.577], [0, 0, 0], [0.577, 0.577, 0.577]]
#guard ok (Pts.affineRank (none : Option F) [[5, 5], [5, 5]]) (· == 0)
#guard ok (Pts.affineRank (none : Option F) [[5, 3], [-6, 20]]) (· == 1)
#guard ok (Pts.affineRank (none : Option F) [[0, 0], [1, 1], [2, 2]]) (· == 1)
#guard ok (Pts.affineRank (none : Option F) [[0, 0], [1, 0], [2, 2]]) (· == 2)
#guard ok (Pts.affineRank (none : Option F) [[0, 1, 0], [1, 1, 0], [2, 2, 2]]) (· == 2)
#guard ok (Pts.affineRank (none : Option F) [[0, 0], [0, 1], [1, 0], [1, 1]]) (· == 2)
#guard ok (Pts.affineRank (none : Option F) [[1, 3, 2], [3, 4, 5], [2, 1, 5], [5, 9, 8]]) (· == 3)
#guard no (Pts.areConcurrent (none : Option F) [[0, 0], [1, 1], [1, 1]])
#guard yes (Pts.areConcurrent (none : Option F) [[1, 1], [1, 1], [1, 1]])
#guard yes (Pts.areCollinear (none : Option F) [[0, 0, 0], [1, 2, 3], [2, 4, 6]])
#guard no (Pts.areCollinear (none : Option F) [[0, 0, 0], [1, 2, 3], [5, 2, 0]])
#guard no (Pts.areCollinear (none : Option F) [[0, 0], [1, 2], [5, 2], [6, 3]])
#guard yes (Pts.areCoplanar (none : Option F) [[1, 2], [9, -18], [12, 4], [2, 1]])
#guard no (Pts.areCoplanar (none : Option F) [[0, 0, 0], [1, 0, 0], [0, 1, 0], [0, 0, 1]])

/-! ### _functions.py, measurement.py, transformation.py -/
#guard ok (solveQuadratic (-1) 1 (1 : F) none) fun r => near r.1 1.618 && near r.2 (-0.618)
#guard raises (solveQuadratic 0 1 (1 : F) none) "The coefficient `a` must be non-zero."
#guard raises (solveQuadratic 1 1 (1 : F) none) "The discriminant must not be negative."
#guard val (Measurement.areaTriangle [0, 0] [0, 1] [1, 0]) 0.5
#guard val (Measurement.areaTriangle [0, 0] [0, 2] [1, 1]) 1
#guard val (Measurement.areaTriangle [3, -5, 1] [5, 2, 1] [9, 4, 2]) 12.54
#guard val (Measurement.volumeTetrahedron [0, 0] [3, 2] [-3, 5] [1, 8]) 0
#guard val (Measurement.volumeTetrahedron [0, 0, 0] [2, 0, 0] [1, 1, 0] [0, 0, 1]) 0.333
#guard val (Measurement.volumeTetrahedron [0, 0, 0] [1, 0, 0] [0, 1, 0] [0, 0, 1]) 0.167
#guard val (Measurement.areaSigned [[0, 0], [1, 0], [0, 1]]) 0.5
#guard val (Measurement.areaSigned [[0, 0], [0, 1], [1, 0]]) (-0.5)
#guard val (Measurement.areaSigned [[0, 0], [0, 1], [1, 2], [2, 1], [2, 0]]) (-3)
#guard mat (transformCoordinates [[1, 2], [3, 4], [5, 6]] [0, 0] [[1, 0], [1, 1]]) [[1, 3], [3, 7], [5, 11]]
#guard mat (transformCoordinates [[1, 2, 3], [4, 5, 6], [7, 8, 9]] [0, 0, 0] [[1, 0, 0], [-1, 1, 0]])
  [[1, 1], [4, 1], [7, 1]]

/-! ### line.py, _base_line_plane.py -/
def L (p d : List F) : Line F := ⟨p, d⟩
#guard raises (Line.new [0, 0] ([1, 0, 0] : List F)) "The point and vector must have the same dimension."
#guard raises (Line.new [1, 1] ([0, 0] : List F)) "The vector must not be the zero vector."
#guard line (Line.fromPoints [0, 0] [1, 0]) [0, 0] [1, 0]
#guard line (Line.fromPoints [1, 0] [0, 0]) [1, 0] [-1, 0]
#guard line (Line.fromSlope 2 0) [0, 0] [1, 2]
#guard line (Line.fromSlope (-3) 5) [0, 5] [1, -3]
#guard vec (Line.intersectLine (L [0, 0] [1, 1]) (L [0, 5] [1, 0]) true dflt) [5, 5]
#guard yes (Line.isCoplanar none (L [0, 0, 0] [1, 0, 0]) (.line (L [-5, 3, 0] [7, 1, 0])))
#guard yes (Line.isCoplanar none (L [0, 0, 0] [1, 0, 0]) (.line (L [0, 0, 0] [0, 0, 1])))
#guard no (Line.isCoplanar none (L [-5, 3, 0] [7, 1, 0]) (.line (L [0, 0, 0] [0, 0, 1])))
#guard raisesType (Line.isCoplanar none (L [0, 0, 0] [1, 0, 0]) (.plane ⟨[0, 0, 0], [1, 0, 0]⟩))
  "The input must also be a line."
#guard vec (Line.toPoint (L [0, 0] [2, 0]) 1) [2, 0]
#guard vec (Line.toPoint (L [0, 0] [2, 0]) 2) [4, 0]
#guard vec (Line.projectPoint (L [0, 0] [8, 0]) [5, 5]) [5, 0]
#guard vec (Line.projectPoint (L [0, 0, 0] [1, 1, 0]) [5, 5, 3]) [5, 5, 0]
#guard mat (Line.projectPoints (L [0, 0] [0, 1]) [[0, 5], [1, 5], [0, 1], [1, 0], [0, 2], [-15, 5], [50, 10]])
  [[0, 5], [0, 5], [0, 1], [0, 0], [0, 2], [0, 5], [0, 10]]
#guard vec (Line.projectVector (L [-1, 5, 3] [3, 4, 5]) [1, 1, 1]) [0.72, 0.96, 1.2]
#guard ok (Line.sidePoint (L [0, 0] [1, 1]) [2, 2]) (· == 0)
#guard ok (Line.sidePoint (L [0, 0] [1, 1]) [5, 3]) (· == 1)
#guard ok (Line.sidePoint (L [0, 0] [1, 1]) [5, 10]) (· == -1)
#guard val (Line.distancePoint (L [0, 0] [1, 0]) [0, 0]) 0
#guard val (Line.distancePoint (L [0, 0] [1, 0]) [5, 0]) 0
#guard val (Line.distancePoint (L [0, 0] [1, 0]) [5, -5]) 5
#guard val (Line.distancePoint (L [5, 2, -3] [3, 8, 2]) [5, -5, 3]) 7.737
#guard vec (Line.distancePoints (L [0, 0] [0, 1]) [[0, 5], [1, 5], [0, 1], [1, 0], [0, 2], [-15, 5], [50, 10]])
  [0, 1, 0, 1, 0, 15, 50]
#guard vec (Line.distancePoints (L [0, 0, 0] [0, 0, 1])
  [[14, -8, 19], [16, 15, 11], [11, 19, 13], [-1, -18, 8], [-17, 1, 11]]) [16.125, 21.932, 21.954, 18.028, 17.029]
#guard val (Line.distanceLine (L [1, 2] [4, 3]) (L [-4, 1] [7, 23])) 0
#guard val (Line.distanceLine (L [0, 0] [1, 0]) (L [0, 5] [-1, 0])) 5
#guard val (Line.distanceLine (L [0, 0, 0] [1, 0, 1]) (L [1, 0, 0] [1, 1, 1])) 0.707
#guard vec (Line.intersectLine (L [0, 0] [1, 0]) (L [5, 5] [0, 1]) true dflt) [5, 0]
#guard vec (Line.intersectLine (L [0, 0, 0] [1, 1, 1]) (L [5, 5, 0] [0, 0, -8]) true dflt) [5, 5, 5]
#guard raises (Line.intersectLine (L [0, 0, 0] [1, 0, 0]) (L [0, 0] [1, 1]) true dflt)
  "The lines must have the same dimension."
#guard raises (Line.intersectLine (L [0, 0, 0, 0] [1, 0, 0, 0]) (L [0, 0, 0, 0] [0, 0, 0, 1]) true dflt)
  "The line dimension cannot be greater than 3."
#guard raises (Line.intersectLine (L [0, 0] [0, 1]) (L [0, 1] [0, 1]) true dflt) "The lines must not be parallel."
#guard raises (Line.intersectLine (L [1, 2, 3] [-4, 1, 1]) (L [4, 5, 6] [3, 1, 5]) true dflt)
  "The lines must be coplanar."
-- (not a docstring: the value computed by hand)
#guard vec (Line.intersectLine (L [1, 2, 3] [-4, 1, 1]) (L [4, 5, 6] [3, 1, 5]) false dflt) [1.323, 1.919, 2.919]
#guard yes (Line.isClose dflt (L [0, 0] [1, 0]) (.line (L [0, 0] [-2, 0])))
#guard yes (Line.isClose dflt (L [0, 0] [1, 0]) (.line (L [50, 0] [-4, 0])))
#guard no (Line.isClose dflt (L [0, 0] [1, 0]) (.line (L [50, 29] [-4, 0])))
#guard raisesType (Line.isClose dflt (L [0, 0] [1, 0]) (.plane ⟨[0, 0, 0], [0, 0, 5]⟩))
  "The input must have the same type as the object."

/-! ### plane.py -/
def P (p d : List F) : Plane F := ⟨p, d⟩
#guard yes (Plane.isClose dflt (P [0, 0, 0] [0, 0, 5]) (.plane (P [23, 45, 0] [0, 0, -20])))
#guard plane (Plane.fromVectors dflt [0, 0] [1, 0] [0, 1]) [0, 0, 0] [0, 0, 1]
#guard raises (Plane.fromVectors dflt [0, 0] [1, 0] [2, 0]) "The vectors must not be parallel."
#guard plane (Plane.fromPoints none [0, 0] [1, 0] [3, 3]) [0, 0, 0] [0, 0, 3]
#guard plane (Plane.fromPoints none [0, 0] [3, 3] [1, 0]) [0, 0, 0] [0, 0, -3]
#guard raises (Plane.fromPoints none [0, 0] [0, 1] ([0, 3] : List F)) "The points must not be collinear."
#guard ok (Plane.cartesian (P [1, 1] [1, 0])) fun r => nearL [r.1, r.2.1, r.2.2.1, r.2.2.2] [1, 0, 0, -1]
#guard ok (Plane.cartesian (P [1, 2, 0] [0, 0, 1])) fun r => nearL [r.1, r.2.1, r.2.2.1, r.2.2.2] [0, 0, 1, 0]
#guard ok (Plane.cartesian (P [1, 2, 8] [0, 0, 5])) fun r => nearL [r.1, r.2.1, r.2.2.1, r.2.2.2] [0, 0, 5, -40]
#guard ok (Plane.cartesian (P [4, 9, -1] [10, 2, 4])) fun r => nearL [r.1, r.2.1, r.2.2.1, r.2.2.2] [10, 2, 4, -54]
#guard raises (Plane.cartesian (P [0, 0, 0, 0] [1, 0, 0, 0])) "The plane dimension must be <= 3."
#guard vec (Plane.projectPoint (P [0, 0, 0] [0, 0, 2]) [10, 2, 5]) [10, 2, 0]
#guard vec (Plane.projectPoint (P [0, 0, 0] [0, 0, 2]) [5, 9, -3]) [5, 9, 0]
#guard mat (Plane.projectPoints (P [0, 0, 0] [0, 0, 2]) [[10, 2, 5], [1, 2, 3]]) [[10, 2, 0], [1, 2, 0]]
#guard vec (Plane.projectVector (P [0, 4, 0] [0, 1, 1]) [2, 4, 8]) [2, -2, 2]
#guard line (Plane.projectLine dflt (P [0, 0, 0] [0, 0, 1]) (L [0, 0, 0] [1, 1, 1])) [0, 0, 0] [1, 1, 0]
#guard line (Plane.projectLine dflt (P [0, 0, 0] [0, 0, 1]) (L [0, 0, 5] [1, 0, 0])) [0, 0, 0] [1, 0, 0]
#guard val (Plane.distancePointSigned (P [0, 0, 0] [0, 0, 1]) [5, 2, 0]) 0
#guard val (Plane.distancePointSigned (P [0, 0, 0] [0, 0, 1]) [5, 2, 1]) 1
#guard val (Plane.distancePointSigned (P [0, 0, 0] [0, 0, 1]) [5, 2, -4]) (-4)
#guard val (Plane.distancePoint (P [0, 0, 0] [0, 0, 1]) [5, 2, -4]) 4
#guard vec (Plane.distancePointsSigned (P [0, 0, 0] [0, 0, 1]) [[5, 2, 0], [5, 2, 1], [5, 2, -4], [5, 2, -4]])
  [0, 1, -4, -4]
#guard vec (Plane.distancePoints (P [0, 0, 0] [0, 0, 1]) [[5, 2, 0], [5, 2, 1], [5, 2, -4], [5, 2, -4]]) [0, 1, 4, 4]
#guard ok (Plane.sidePoint (P [0, 0, 0] [0, 0, 1]) [2, 5, 0]) (· == 0)
#guard ok (Plane.sidePoint (P [0, 0, 0] [0, 0, 1]) [1, -5, 6]) (· == 1)
#guard ok (Plane.sidePoint (P [0, 0, 0] [0, 0, 1]) [5, 8, -4]) (· == -1)
#guard ok (Plane.sidePoint (P [0, 0, 0, 0] [0, 1, 0, 1]) [0, -10, 4, 1]) (· == -1)
#guard vec (Plane.intersectLine dflt (P [0, 0, 0] [0, 0, 1]) (L [0, 0, 0] [0, 0, 1])) [0, 0, 0]
#guard vec (Plane.intersectLine dflt (P [2, -53, -7] [0, 0, 1]) (L [0, 0, 0] [0, 0, 1])) [0, 0, -7]
#guard raises (Plane.intersectLine dflt (P [2, -53, -7] [0, 0, 1]) (L [0, 1, 0] [1, 0, 0]))
  "The line and plane must not be parallel."
#guard line (Plane.intersectPlane dflt (P [0, 0, 0] [0, 0, 1]) (P [0, 0, 0] [1, 0, 0])) [0, 0, 0] [0, 1, 0]
#guard line (Plane.intersectPlane dflt (P [0, 0, 0] [0, 0, 1]) (P [5, 16, -94] [1, 0, 0])) [5, 0, 0] [0, 1, 0]
#guard line (Plane.intersectPlane dflt (P [0, 0, 0] [0, 0, 1]) (P [0, 0, 1] [1, 0, 1])) [1, 0, 0] [0, 1, 0]
#guard raises (Plane.intersectPlane dflt (P [0, 0, 0] [0, 0, 1]) (P [0, 0, 5] [0, 0, -8]))
  "The planes must not be parallel."
#guard ok (Plane.toMesh (P [0, 0, 0] [0, 0, 1]) [-1, 1] [-1, 1]) fun r =>
  nearM r.1 [[-1, 1], [-1, 1]] && nearM r.2.1 [[-1, -1], [1, 1]] && nearM r.2.2 [[0, 0], [0, 0]]

/-! ### circle.py, sphere.py -/
def C (p : List F) (r : F) : Circle F := ⟨p, r⟩
def S (p : List F) (r : F) : Sphere F := ⟨p, r⟩
#guard raises (Circle.new [0, 0, 0] (1 : F)) "The point must be 2D."
#guard raises (Circle.new [0, 0] (0 : F)) "The radius must be positive."
#guard near (Circle.area (C [2, 5] 3)) 28.27
#guard circle (Circle.fromPoints none [-1, 0] [0, 1] [1, 0]) [0, 0] 1
#guard raises (Circle.fromPoints none [1, 0, 0] [0, 1] ([1, 0] : List F)) "The points must be 2D."
#guard raises (Circle.fromPoints none [0, 0] [1, 1] ([2, 2] : List F)) "The points must not be collinear."
#guard pair (Circle.intersectCircle (C [0, 0] 1) (C [2, 0] 1)) [1, 0] [1, 0]
#guard raises (Circle.intersectCircle (C [0, 0] 1) (C [0, 0] 2)) "The centres of the circles are coincident."
#guard raises (Circle.intersectCircle (C [0, 0] 1) (C [3, 0] 1))
  "The circles do not intersect. These circles are separate."
#guard raises (Circle.intersectCircle (C [0, 0] 3) (C [1, 0] 1))
  "The circles do not intersect. One circle is contained within the other."
#guard pair (Circle.intersectLine (C [0, 0] 1) (L [0, 0] [1, 0])) [-1, 0] [1, 0]
#guard pair (Circle.intersectLine (C [0, 0] 1) (L [0, 0] [1, 1])) [-0.707, -0.707] [0.707, 0.707]
#guard pair (Circle.intersectLine (C [0, 0] 1) (L [1, 2] [1, 1])) [-1, 0] [0, 1]
#guard pair (Circle.intersectLine (C [0, 0] 1) (L [1, 0] [0, 1])) [1, 0] [1, 0]
#guard pair (Circle.intersectLine (C [2, 3] 5) (L [1, 1] [2, 3])) [-0.538, -1.308] [5, 7]
#guard raises (Circle.intersectLine (C [0, 0] 1) (L [5, 0] [1, 1])) "The line does not intersect the circle."
#guard circle (Circle.bestFit [[1, 1], [2, 2], [3, 1]]) [2, 1] 1
#guard raises (Sphere.new [0, 0, 0] (0 : F)) "The radius must be positive."
#guard raises (Sphere.new [0, 0, 0, 0] (1 : F)) "The point must be 3D."
#guard near (Sphere.surfaceArea (S [1, 2, 3] 5)) 314.16
#guard near (Sphere.surfaceArea (S [0, 0, 0] 2)) 50.27
#guard near (Sphere.volume (S [0, 0, 0] 1)) 4.19
#guard near (Sphere.volume (S [0, 0, 0] 2)) 33.51
#guard pair (Sphere.intersectLine (S [0, 0, 0] 1) (L [0, 0, 0] [1, 0, 0])) [-1, 0, 0] [1, 0, 0]
#guard pair (Sphere.intersectLine (S [0, 0, 0] 1) (L [0, 0, 1] [1, 0, 0])) [0, 0, 1] [0, 0, 1]
#guard raises (Sphere.intersectLine (S [0, 0, 0] 1) (L [0, 0, 2] [1, 0, 0]))
  "The line does not intersect the sphere."
#guard ok (Sphere.bestFit [[1, 0, 1], [0, 1, 1], [1, 2, 1], [1, 1, 2]]) fun s =>
  nearL s.point [1, 1, 1] && near s.radius 1

/-! ### cylinder.py -/
def Cy (p v : List F) (r : F) : Cylinder F := ⟨p, v, r⟩
#guard raises (Cylinder.new [0, 0] [1, 0, 0] (1 : F)) "The point must be 3D."
#guard raises (Cylinder.new [0, 0, 0] [1, 0] (1 : F)) "The vector must be 3D."
#guard raises (Cylinder.new [0, 0, 0] [0, 0, 0] (1 : F)) "The vector must not be the zero vector."
#guard raises (Cylinder.new [0, 0, 0] [0, 0, 1] (0 : F)) "The radius must be positive."
#guard ok (Cylinder.fromPoints [0, 0, 0] [0, 0, 2] (1 : F)) fun c => nearL c.vector [0, 0, 2]
#guard near (Cylinder.length (Cy [0, 0, 0] [1, 1, 1] 1)) 1.732
#guard near (Cylinder.lateralSurfaceArea (Cy [0, 0, 0] [0, 0, 1] 1)) 6.283
#guard near (Cylinder.lateralSurfaceArea (Cy [0, 0, 0] [0, 0, 2] 2)) 25.133
#guard near (Cylinder.surfaceArea (Cy [0, 0, 0] [0, 0, 1] 1)) 12.566
#guard near (Cylinder.surfaceArea (Cy [0, 0, 0] [0, 0, 1] 2)) 37.699
#guard near (Cylinder.surfaceArea (Cy [0, 0, 0] [0, 0, 2] 2)) 50.265
#guard near (Cylinder.volume (Cy [0, 0, 0] [0, 0, 2] 1)) 6.28319
def cyl : Cylinder F := Cy [0, 0, 0] [0, 0, 1] 1
#guard yes (Cylinder.isPointWithin cyl [0, 0, 0])
#guard yes (Cylinder.isPointWithin cyl [0, 0, 1])
#guard no (Cylinder.isPointWithin cyl [0, 0, 2])
#guard no (Cylinder.isPointWithin cyl [0, 0, -1])
#guard yes (Cylinder.isPointWithin cyl [1, 0, 0])
#guard yes (Cylinder.isPointWithin cyl [0, 1, 0])
#guard no (Cylinder.isPointWithin cyl [1, 1, 0])
#guard pair (Cylinder.intersectLine cyl (L [0, 0, 0] [1, 0, 0]) none true) [-1, 0, 0] [1, 0, 0]
#guard pair (Cylinder.intersectLine cyl (L [1, 2, 3] [1, 2, 3]) none true) [-0.447, -0.894, -1.342] [0.447, 0.894, 1.342]
#guard raises (Cylinder.intersectLine cyl (L [0, 0] [1, 2]) none true) "The line must be 3D."
#guard raises (Cylinder.intersectLine cyl (L [0, 0, 2] [0, 0, 1]) none true) "The line does not intersect the cylinder."
#guard raises (Cylinder.intersectLine cyl (L [2, 0, 0] [0, 1, 1]) none true) "The line does not intersect the cylinder."
#guard pair (Cylinder.intersectLine cyl (L [0, 0, 0] [0, 0, 1]) none false) [0, 0, 0] [0, 0, 1]
#guard pair (Cylinder.intersectLine (Cy [0, 0, 0] [0, 0, 5] 1) (L [0, 0, 0] [1, 0, 1]) none false) [0, 0, 0] [1, 0, 1]
-- the algebraic part of `best_fit`, for the direction the optimiser should find
#guard ok (do
    let ps : List (List F) := [[0, 2, 0], [0, -2, 0], [0, 0, 2], [5, 2, 0], [5, -2, 0], [5, 0, 2]]
    let (centered, c) ← Pts.meanCenter ps
    Cylinder.fitFromDirection ps centered c [1, 0, 0]) fun c =>
  nearL c.point [0, 0, 0] && nearL c.vector [5, 0, 0] && near c.radius 2

/-! ### line_segment.py -/
def Sg (a b : List F) : LineSegment F := ⟨a, b⟩
#guard raises (LineSegment.new [0, 0] ([0, 0] : List F)) "The endpoints must not be equal."
#guard yes (LineSegment.containsPoint dflt (Sg [0, 0] [1, 0]) [0, 0])
#guard yes (LineSegment.containsPoint dflt (Sg [0, 0] [1, 0]) [0.5, 0])
#guard no (LineSegment.containsPoint dflt (Sg [0, 0] [1, 0]) [2, 0])
#guard no (LineSegment.containsPoint dflt (Sg [0, 0] [1, 0]) [0, 1])
#guard vec (LineSegment.intersectLineSegment (Sg [-1, 0] [1, 0]) (Sg [0, -1] [0, 1]) true dflt) [0, 0]
#guard raises (LineSegment.intersectLineSegment (Sg [-1, 0] [1, 0]) (Sg [0, 1] [0, 2]) true dflt)
  "The line segments must intersect."

/-! ### triangle.py -/
def T (a b c : List F) : Triangle F := ⟨a, b, c⟩
#guard raises (Triangle.new [0, 0, 0] [1, 0] ([0, 1] : List F)) "The points must have the same dimension."
#guard raises (Triangle.new [0, 0] [0, 1] ([0, 2] : List F)) "The points must not be collinear."
#guard ok (Triangle.new [0, 0] [1, 0] ([0, 1] : List F)) fun t => t.dimension == 2
#guard vec (Triangle.multiple (Triangle.length (T [0, 0] [0, 1] [1, 0])) ["a", "b", "c"]) [1.414, 1, 1]
#guard ok (Triangle.multiple (Triangle.angle (T [0, 0] [0, 1] [1, 0])) ["A", "B", "C"]) fun l =>
  nearL (l.map deg) [90, 45, 45]
#guard vec (Triangle.normal (T [0, 0] [1, 0] [0, 1])) [0, 0, 1]
#guard vec (Triangle.normal (T [0, 0] [2, 0] [0, 2])) [0, 0, 4]
#guard vec (Triangle.normal (T [0, 0] [0, 1] [1, 0])) [0, 0, -1]
#guard val (Triangle.area (T [0, 0] [0, 1] [1, 0])) 0.5
#guard val (Triangle.area (T [0, 0] [0, 2] [1, 1])) 1
#guard val (Triangle.area (T [3, -5, 1] [5, 2, 1] [9, 4, 2])) 12.54
#guard val (Triangle.perimeter (T [0, 0] [0, 1] [1, 0])) 3.414
#guard val (Triangle.perimeter (T [0, 1] [1, 1] [2, 0])) 4.65
def t0 : Triangle F := T [0, 0] [1, 0] [0, 1]
#guard vec (t0.point "A") [0, 0]
#guard vec (t0.point "B") [1, 0]
#guard vec (t0.point "C") [0, 1]
#guard raises (t0.point "D") "The vertex must be 'A', 'B', or 'C'."
#guard line (t0.line "a") [1, 0] [-1, 1]
#guard line (t0.line "b") [0, 1] [0, -1]
#guard line (t0.line "c") [0, 0] [1, 0]
#guard raises (t0.line "d") "The side must be 'a', 'b', or 'c'."
#guard val (t0.length "a") 1.414
#guard raises (t0.length "d") "The side must be 'a', 'b', or 'c'."
#guard val (t0.angle "A") 1.571
#guard val (t0.angle "B") 0.785
#guard val (t0.angle "C") 0.785
#guard raises (t0.angle "D") "The vertex must be 'A', 'B', or 'C'."
#guard vec (Triangle.centroid (T [0, 0] [0, 1] [1, 0])) [0.333, 0.333]
#guard vec (Triangle.centroid (T [0, 0, 0] [1, 2, 3] [4, 5, 6])) [1.667, 2.333, 3]
#guard line (Triangle.altitude (T [0, 0] [1, 1] [2, 0]) "A") [0, 0] [1, 1]
#guard line (Triangle.altitude (T [0, 0] [1, 1] [2, 0]) "B") [1, 1] [0, -1]
#guard line (Triangle.altitude (T [0, 0] [1, 1] [2, 0]) "C") [2, 0] [-1, 1]
#guard raises (Triangle.altitude (T [0, 0] [1, 1] [2, 0]) "D") "The vertex must be 'A', 'B', or 'C'."
#guard vec (Triangle.orthocenter (T [0, 0] [0, 1] [1, 0]) true dflt) [0, 0]
#guard vec (Triangle.orthocenter (T [0, 0] [1, 2] [2, 0]) true dflt) [1, 0.5]
#guard ok (Triangle.classify dflt (T [0, 0] [1, 0] [1, 1])) (· == "isosceles")
#guard ok (Triangle.classify dflt t0) (· == "isosceles")
#guard ok (Triangle.classify dflt (T [0, 0] [1, 0] [0, 2])) (· == "scalene")
#guard ok (Triangle.classify dflt (T [0, 0] [1, 0] [0.5, Float.sin (3.141592653589793 / 3)])) (· == "equilateral")
#guard ok (Triangle.classify dflt (T [0, 0] [1, 0] [0.5, 0.866])) (· == "isosceles")
#guard ok (Triangle.classify ⟨1e-3, 0⟩ (T [0, 0] [1, 0] [0.5, 0.866])) (· == "equilateral")
#guard yes (Triangle.isRight dflt (T [0, 0] [0, 1] [1, 0]))
#guard yes (Triangle.isRight dflt (T [0, 0] [0, 1] [1, 1]))
#guard no (Triangle.isRight dflt (T [0, 0] [1, 2] [2, 0]))
#guard no (Triangle.isRight dflt (T [0, 0] [100, 0] [101, 100]))
#guard yes (Triangle.isRight ⟨1e-2, 0⟩ (T [0, 0] [100, 0] [101, 100]))

end SkSpatial.Doctests
