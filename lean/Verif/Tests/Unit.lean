import Verif.Tests.Doctests
/-!
# The unit tests of the repository, run on the model

Generated by `tools/unit_tests.py` from `/repo/tests`.  Tests of the fidelity of the model, not proofs: the model at
binary64 is evaluated on every row of the parametrised unit tests of the repository.  A wrong output is a build error.

Not translated:
* `test_base_array.py::test_failure_from_different_lengths`: a ragged list never becomes an array (error of np.array)
* `test_base_array_1d.py::test_dimension_of_slice`: slices are modelled in Model/Heap.lean
* `test_points.py::test_dimension`: dimension is the row length by construction in the model
* `test_all_objects.py` (repr), slices of `Points` (`test_dimension_of_slice`)
-/

namespace SkSpatial.UnitTests
open SkSpatial.Doctests

/-- Agreement to nine digits (the default of `math.isclose`, with an absolute tolerance for zeros). -/
def tight (x y : F) : Bool := (x - y).abs ≤ 1e-9 * max 1 y.abs
def tightL (x y : List F) : Bool := x.length == y.length && (List.zipWith tight x y).all id
def tightM (x y : List (List F)) : Bool := x.length == y.length && (List.zipWith tightL x y).all id
def tval (r : Res F) (y : F) : Bool := ok r (tight · y)
def tvec (r : Res (List F)) (y : List F) : Bool := ok r (tightL · y)
def tmat (r : Res (List (List F))) (y : List (List F)) : Bool := ok r (tightM · y)
def tpair (r : Res (List F × List F)) (p q : List F) : Bool := ok r fun x => tightL x.1 p && tightL x.2 q
def sameV (r s : Res (List F)) : Bool := ok s (tvec r ·)
def sameM (r s : Res (List (List F))) : Bool := ok s (tmat r ·)
def inf : F := 1 / 0

-- test_functions.py: test_solve_quadratic
#guard ok (solveQuadratic 1 0 (0 : F) none) fun r => tight r.1 0 && tight r.2 0
#guard ok (solveQuadratic (-1) 0 (0 : F) none) fun r => tight r.1 0 && tight r.2 0
#guard ok (solveQuadratic (-1) 1 (0 : F) none) fun r => tight r.1 1 && tight r.2 0
#guard ok (solveQuadratic 1 (-1) ((-1) : F) none) fun r => tight r.1 (-0.6180339887498949) && tight r.2 1.618033988749895

-- test_functions.py: test_solve_quadratic_failure
#guard raises (solveQuadratic 0 0 (0 : F) none) "The coefficient `a` must be non-zero."
#guard raises (solveQuadratic 0 1 (1 : F) none) "The coefficient `a` must be non-zero."
#guard raises (solveQuadratic 1 0 (1 : F) none) "The discriminant must not be negative."
#guard raises (solveQuadratic 1 2 (2 : F) none) "The discriminant must not be negative."
#guard raises (solveQuadratic 1 (-2) (2 : F) none) "The discriminant must not be negative."
#guard raises (solveQuadratic (-1) 0 ((-1) : F) none) "The discriminant must not be negative."

-- test_measurement.py: test_area_triangle
#guard tval (Measurement.areaTriangle [0, 0] [1, 0] [0, 1]) 0.5
#guard tval (Measurement.areaTriangle [0, 0] [1, 1] [2, 0]) 1
#guard tval (Measurement.areaTriangle [0, 0] [1, 10] [2, 0]) 10
#guard tval (Measurement.areaTriangle [0, 0] [1, 0] [2, 0]) 0
#guard tval (Measurement.areaTriangle [0, 0] [(-5), (-2)] [5, 2]) 0
#guard tval (Measurement.areaTriangle [1, 0, 0] [0, 1, 0] [0, 0, 1]) 0.8660254037844386
#guard tval (Measurement.areaTriangle [2, 0, 0] [0, 2, 0] [0, 0, 2]) 3.4641016151377544

-- test_measurement.py: test_volume_tetrahedron
#guard tval (Measurement.volumeTetrahedron [0, 0] [2, 0] [1, 1] [10, (-7)]) 0
#guard tval (Measurement.volumeTetrahedron [0, 0, 0] [2, 0, 0] [1, 1, 0] [0, 0, 1]) 0.3333333333333333
#guard tval (Measurement.volumeTetrahedron [0, 0, 0] [2, 0, 0] [1, 1, 0] [0, 0, (-1)]) 0.3333333333333333
#guard tval (Measurement.volumeTetrahedron [0, 0, 0] [2, 0, 0] [1, 1, 0] [0, 0, 2]) 0.6666666666666666
#guard tval (Measurement.volumeTetrahedron [0, 0, 0] [2, 0, 0] [1, 1, 0] [0, 0, 3]) 1
#guard tval (Measurement.volumeTetrahedron [0, 0, 0] [2, 0, 0] [1, 1, 0] [(-56), 10, 3]) 1
#guard tval (Measurement.volumeTetrahedron [0, 1, 1] [0, 1, 5] [0, (-5), 7] [0, 5, 2]) 0

-- test_measurement.py: test_area_signed
#guard tval (Measurement.areaSigned [[2, 2], [6, 2], [4, 5]]) 6
#guard tval (Measurement.areaSigned [[1, 3], [(-4), 3], [(-3), 4]]) (-2.5)
#guard tval (Measurement.areaSigned [[(-1), 2], [2, 5], [(-1), 8], [(-4), 5]]) 18
#guard tval (Measurement.areaSigned [[(-2), 2], [(-5), 2], [(-8), 5], [(-4), 8], [(-1), 5]]) (-25.5)
#guard tval (Measurement.areaSigned [[3, (-2)], [6, (-3)], [10, (-1)], [8, 4], [4, 3], [1, 1]]) 39.5
#guard tval (Measurement.areaSigned [[5, (-2)], [1, (-1)], [0, 4], [6, 6], [3, 3]]) (-22)
#guard tval (Measurement.areaSigned [[(-4), 4], [(-4), 1], [2, 4], [2, 1]]) 0

-- test_measurement.py: test_area_signed_failure
#guard raises (Measurement.areaSigned ([[1, 0, 0], [(-1), 0, 0], [0, 1, 0]] : List (List F))) "The points must be 2D."
#guard raises (Measurement.areaSigned ([[2, 0], [(-2), 0]] : List (List F))) "There must be at least 3 points."

-- test_base_array.py: test_failure_from_empty_array
#guard raises (newArray1D (⟨[0], []⟩ : NDArray F)) "The array must not be empty."
#guard raises (newArray2D (⟨[0], []⟩ : NDArray F)) "The array must be 2D."

-- test_base_array.py: test_failure_from_infinite_values
#guard raises (newArray1D (⟨[2], [nan, 0]⟩ : NDArray F)) "The values must all be finite."
#guard raises (newArray1D (⟨[2], [1, inf]⟩ : NDArray F)) "The values must all be finite."
#guard raises (newArray2D (⟨[2, 2], [1, 1, 1, nan]⟩ : NDArray F)) "The values must all be finite."

-- test_base_array_1d.py: test_equality
#guard vec (new1D [1, 0]) [1, 0]
#guard vec (new1D [1, 2]) [1, 2]
#guard vec (new1D [1, 2, 3]) [1, 2, 3]
#guard vec (new1D [1, 2, 3, 4]) [1, 2, 3, 4]
#guard vec (new1D [1, 2, 3, 4, 5]) [1, 2, 3, 4, 5]

-- test_base_array_1d.py: test_failure
#guard raises (newArray1D (⟨[1, 1], [0]⟩ : NDArray F)) "The array must be 1D."
#guard raises (newArray1D (⟨[2, 1], [0, 0]⟩ : NDArray F)) "The array must be 1D."
#guard raises (newArray1D (⟨[2, 2], [0, 0, 0, 0]⟩ : NDArray F)) "The array must be 1D."
#guard raises (newArray1D (⟨[1, 3], [1, 2, 3]⟩ : NDArray F)) "The array must be 1D."

-- test_base_array_1d.py: test_set_dimension
#guard vec (setDimension 2 [0, 0]) [0, 0]
#guard vec (setDimension 3 [0, 0]) [0, 0, 0]
#guard vec (setDimension 5 [0, 0]) [0, 0, 0, 0, 0]
#guard vec (setDimension 4 [6, 3, 7]) [6, 3, 7, 0]

-- test_base_array_1d.py: test_dimension_failure
#guard raises (setDimension 2 ([0, 0, 0] : List F)) "The desired dimension cannot be less than the current dimension."
#guard raises (setDimension 1 ([0, 0] : List F)) "The desired dimension cannot be less than the current dimension."
#guard raises (setDimension 0 ([0] : List F)) "The desired dimension cannot be less than the current dimension."

-- test_base_array_2d.py: test_dimension_failure
#guard raises (setDimension2D 0 ([[0], [0], [0]] : List (List F))) "The desired dimension cannot be less than the current dimension."
#guard raises (setDimension2D 1 ([[0, 0], [0, 0], [0, 0]] : List (List F))) "The desired dimension cannot be less than the current dimension."
#guard raises (setDimension2D 2 ([[0, 0, 0], [0, 0, 0], [0, 0, 0]] : List (List F))) "The desired dimension cannot be less than the current dimension."

-- test_base_line_plane.py: test_dimension
#guard ok (Line.new [0, 0] ([1, 0] : List F)) fun l => l.dimension == 2
#guard ok (Plane.new [0, 0] ([1, 0] : List F)) fun l => l.dimension == 2
#guard ok (Line.new [0, 0, 0] ([1, 0, 0] : List F)) fun l => l.dimension == 3
#guard ok (Plane.new [0, 0, 0] ([1, 0, 0] : List F)) fun l => l.dimension == 3
#guard ok (Line.new [0, 0, 0, 0] ([1, 0, 0, 0] : List F)) fun l => l.dimension == 4
#guard ok (Plane.new [0, 0, 0, 0] ([1, 0, 0, 0] : List F)) fun l => l.dimension == 4

-- test_point.py: test_distance_point
#guard tval (Pt.distancePoint [0] [(-5)]) 5
#guard tval (Pt.distancePoint [0] [5]) 5
#guard tval (Pt.distancePoint [0, 0] [0, 0]) 0
#guard tval (Pt.distancePoint [0, 0] [1, 0]) 1
#guard tval (Pt.distancePoint [0, 0] [(-1), 0]) 1
#guard tval (Pt.distancePoint [0, 0] [1, 1]) 1.4142135623730951
#guard tval (Pt.distancePoint [0, 0] [5, 5]) 7.0710678118654755
#guard tval (Pt.distancePoint [0, 0] [(-5), 5]) 7.0710678118654755
#guard tval (Pt.distancePoint [0, 0, 0] [1, 1, 1]) 1.7320508075688772
#guard tval (Pt.distancePoint [0, 0, 0] [5, 5, 5]) 8.660254037844386
#guard tval (Pt.distancePoint [1, 5, 3] [1, 5, 4]) 1
#guard tval (Pt.distancePoint [0, 0, 0, 0] [1, 1, 1, 1]) 2.0

-- test_points.py: test_failure
#guard raises (newArray2D (⟨[1], [0]⟩ : NDArray F)) "The array must be 2D."
#guard raises (newArray2D (⟨[1], [5]⟩ : NDArray F)) "The array must be 2D."
#guard raises (newArray2D (⟨[2], [0, 1]⟩ : NDArray F)) "The array must be 2D."
#guard raises (newArray2D (⟨[3], [0, 1, 2]⟩ : NDArray F)) "The array must be 2D."

-- test_points.py: test_set_dimension
#guard mat (setDimension2D 3 [[0, 0], [1, 1]]) [[0, 0, 0], [1, 1, 0]]
#guard mat (setDimension2D 4 [[0, 0], [1, 1]]) [[0, 0, 0, 0], [1, 1, 0, 0]]
#guard mat (setDimension2D 3 [[0, 0, 0], [1, 1, 1]]) [[0, 0, 0], [1, 1, 1]]

-- test_points.py: test_mean_center
#guard ok (Pts.meanCenter [[0, 1]]) fun r => tightM r.1 [[0, 0]] && tightL r.2 [0, 1]
#guard ok (Pts.meanCenter [[1, 1], [2, 2]]) fun r => tightM r.1 [[(-0.5), (-0.5)], [0.5, 0.5]] && tightL r.2 [1.5, 1.5]
#guard ok (Pts.meanCenter [[0, 0], [2, 2]]) fun r => tightM r.1 [[(-1), (-1)], [1, 1]] && tightL r.2 [1, 1]
#guard ok (Pts.meanCenter [[1, 2], [(-1.3), 11], [24, 5], [7, 3]]) fun r => tightM r.1 [[(-6.675), (-3.25)], [(-8.975), 5.75], [16.325, (-0.25)], [(-0.675), (-2.25)]] && tightL r.2 [7.675, 5.25]
#guard ok (Pts.meanCenter [[(-2), 0, 2, 5], [4, 1, (-3), 2.1]]) fun r => tightM r.1 [[(-3), (-0.5), 2.5, 1.45], [3, 0.5, (-2.5), (-1.45)]] && tightL r.2 [1, 0.5, (-0.5), 3.55]

-- test_points.py: test_normalize_distance
#guard tightM (Pts.normalizeDistance [[0, 0], [1, 0]]) [[0, 0], [1, 0]]
#guard tightM (Pts.normalizeDistance [[0, 0], [1, 1]]) [[0, 0], [0.7071067811865476, 0.7071067811865476]]
#guard tightM (Pts.normalizeDistance [[0, 0], [5, 0], [(-1), 0]]) [[0, 0], [1, 0], [(-0.2), 0]]
#guard tightM (Pts.normalizeDistance [[9, 9, 9], [9, 9, 9], [9, 9, 9]]) [[0.5773502691896257, 0.5773502691896257, 0.5773502691896257], [0.5773502691896257, 0.5773502691896257, 0.5773502691896257], [0.5773502691896257, 0.5773502691896257, 0.5773502691896257]]

-- test_points.py: test_are_collinear
#guard yes (Pts.areCollinear (none : Option F) [[0, 0], [0, 0], [0, 0]])
#guard yes (Pts.areCollinear (none : Option F) [[1, 0], [1, 0], [1, 0]])
#guard yes (Pts.areCollinear (none : Option F) [[0, 0], [0, 1], [0, 2]])
#guard no (Pts.areCollinear (none : Option F) [[0, 0], [0, 1], [1, 2]])
#guard yes (Pts.areCollinear (none : Option F) [[0, 1], [0, 0], [0, 2]])
#guard yes (Pts.areCollinear (none : Option F) [[0, 0], [(-1), 0], [10, 0]])
#guard yes (Pts.areCollinear (none : Option F) [[0, 0], [1, 1], [2, 2], [(-4), (-4)], [5, 5]])
#guard yes (Pts.areCollinear (none : Option F) [[0, 0, 0], [1, 1, 1], [2, 2, 2]])
#guard no (Pts.areCollinear (none : Option F) [[0, 0, 0], [1, 1, 1], [2, 2, 2.5]])
#guard no (Pts.areCollinear (none : Option F) [[0, 0, 0], [1, 1, 0], [2, 2, 0], [(-4), (-4), 10], [5, 5, 0]])

-- test_vector.py: test_from_points
#guard tvec (Vec.fromPoints [0, 0] [1, 0]) [1, 0]
#guard tvec (Vec.fromPoints [1, 0] [1, 0]) [0, 0]
#guard tvec (Vec.fromPoints [1, 0] [2, 0]) [1, 0]
#guard tvec (Vec.fromPoints [8, 3, (-5)] [3, 7, 1]) [(-5), 4, 6]
#guard tvec (Vec.fromPoints [5, 7, 8, 9] [2, 5, 3, (-4)]) [(-3), (-2), (-5), (-13)]

-- test_vector.py: test_unit
#guard tvec (Vec.unit [1, 0]) [1, 0]
#guard tvec (Vec.unit [2, 0]) [1, 0]
#guard tvec (Vec.unit [(-1), 0]) [(-1), 0]
#guard tvec (Vec.unit [0, 0, 5]) [0, 0, 1]
#guard tvec (Vec.unit [1, 1]) [0.7071067811865476, 0.7071067811865476]
#guard tvec (Vec.unit [1, 1, 1]) [0.5773502691896257, 0.5773502691896257, 0.5773502691896257]
#guard tvec (Vec.unit [2, 0, 0, 0]) [1, 0, 0, 0]
#guard tvec (Vec.unit [3, 3, 0, 0]) [0.7071067811865476, 0.7071067811865476, 0, 0]

-- test_vector.py: test_unit_failure
#guard raises (Vec.unit ([0] : List F)) "The magnitude must not be zero."
#guard raises (Vec.unit ([0, 0] : List F)) "The magnitude must not be zero."
#guard raises (Vec.unit ([0, 0, 0] : List F)) "The magnitude must not be zero."

-- test_vector.py: test_is_zero
#guard yes (Vec.isZero dflt [0, 0])
#guard yes (Vec.isZero dflt [0, 0, 0])
#guard no (Vec.isZero dflt [0, 1])
#guard no (Vec.isZero dflt [0, 0, 0.0001])
#guard yes (Vec.isZero ⟨1e-9, 1e-3⟩ [0, 0, 0.0001])
#guard yes (Vec.isZero dflt [0, 0, 0, 0])
#guard no (Vec.isZero dflt [7, 0, 2, 0])

-- test_vector.py: test_cosine_similarity
#guard tval (Vec.cosineSimilarity [1, 0] [1, 0]) 1
#guard tval (Vec.cosineSimilarity [1, 0] [0, 1]) 0
#guard tval (Vec.cosineSimilarity [1, 0] [(-1), 0]) (-1)
#guard tval (Vec.cosineSimilarity [1, 0] [0, (-1)]) 0
#guard tval (Vec.cosineSimilarity [1, 0] [1, 1]) 0.7071067811865476
#guard tval (Vec.cosineSimilarity [1, 0] [(-1), 1]) (-0.7071067811865476)
#guard tval (Vec.cosineSimilarity [1, 0] [(-1), (-1)]) (-0.7071067811865476)
#guard tval (Vec.cosineSimilarity [1, 0] [1, (-1)]) 0.7071067811865476
#guard tval (Vec.cosineSimilarity [1, 0] [0.5, 0.8660254037844386]) 0.5
#guard tval (Vec.cosineSimilarity [1, 0] [0.8660254037844386, 0.5]) 0.8660254037844386

-- test_vector.py: test_cosine_similarity_failure
#guard raises (Vec.cosineSimilarity [1, 1] ([0, 0] : List F)) "The vectors must have non-zero magnitudes."
#guard raises (Vec.cosineSimilarity [0, 0] ([1, 1] : List F)) "The vectors must have non-zero magnitudes."

-- test_vector.py: test_angle_between
#guard tval (Vec.angleBetween [1, 0] [1, 0]) 0
#guard tval (Vec.angleBetween [1, 0] [0.8660254037844386, 0.5]) 0.5235987755982988
#guard tval (Vec.angleBetween [1, 0] [1, 1]) 0.7853981633974483
#guard tval (Vec.angleBetween [1, 0] [0, 1]) 1.5707963267948966
#guard tval (Vec.angleBetween [1, 0] [0, (-1)]) 1.5707963267948966
#guard tval (Vec.angleBetween [1, 0] [(-1), 0]) 3.141592653589793
#guard tval (Vec.angleBetween [1, 0, 0] [0, 1, 0]) 1.5707963267948966

-- test_vector.py: test_angle_signed
#guard tval (Vec.angleSigned [1, 0] [1, 0]) 0
#guard tval (Vec.angleSigned [1, 0] [1, 1]) 0.7853981633974483
#guard tval (Vec.angleSigned [1, 0] [0, 1]) 1.5707963267948966
#guard tval (Vec.angleSigned [1, 0] [(-1), 1]) 2.356194490192345
#guard tval (Vec.angleSigned [1, 0] [(-1), 0]) 3.141592653589793
#guard tval (Vec.angleSigned [1, 0] [(-1), (-1)]) (-2.356194490192345)
#guard tval (Vec.angleSigned [1, 0] [0, (-1)]) (-1.5707963267948966)
#guard tval (Vec.angleSigned [1, 0] [1, (-1)]) (-0.7853981633974483)
#guard tval (Vec.angleSigned [1, 1] [0, 1]) 0.7853981633974483
#guard tval (Vec.angleSigned [1, 1] [1, 0]) (-0.7853981633974483)

-- test_vector.py: test_angle_signed_failure
#guard raises (Vec.angleSigned [0] ([0] : List F)) "The vectors must be 2D."
#guard raises (Vec.angleSigned [1, 1, 1] ([1, 0, 0] : List F)) "The vectors must be 2D."
#guard raises (Vec.angleSigned [1, 1, 1, 1] ([1, 1, 1, 1] : List F)) "The vectors must be 2D."

-- test_vector.py: test_angle_signed_3d
#guard tval (Vec.angleSigned3d [1, 0, 0] [1, 0, 0] [1, 2, 3]) 0
#guard tval (Vec.angleSigned3d [1, 0, 0] [(-1), 0, 0] [1, 2, 3]) 3.141592653589793
#guard tval (Vec.angleSigned3d [(-1), 0, 0] [1, 0, 0] [1, 2, 3]) 3.141592653589793
#guard tval (Vec.angleSigned3d [3, 0, 0] [0, 2, 0] [0, 0, (-4)]) (-1.5707963267948966)
#guard tval (Vec.angleSigned3d [3, 0, 0] [0, 2, 0] [0, 0, 5]) 1.5707963267948966
#guard tval (Vec.angleSigned3d [(-4), 0, 0] [1, 1, 0] [0, 0, 2]) (-2.356194490192345)

-- test_vector.py: test_angle_signed_3d_failure
#guard raises (Vec.angleSigned3d [1, 0] [1, 0] ([0, 0, 3] : List F)) "The vectors must be 3D."
#guard raises (Vec.angleSigned3d [2, (-1), 0] [0, 2, 0] ([1, 1] : List F)) "The vectors must be 3D."
#guard raises (Vec.angleSigned3d [1, 1, 1, 1] [1, 1, 1, 1] ([1, 1, 1, 1] : List F)) "The vectors must be 3D."
#guard raises (Vec.angleSigned3d [3, 0, 0] [0, 2, 0] ([0, 1, 1] : List F)) "The positive direction vector must be perpendicular to the plane formed by the two main input vectors."

-- test_vector.py: test_is_perpendicular
#guard yes (Vec.isPerpendicular dflt [1, 0] [0, 1])
#guard yes (Vec.isPerpendicular dflt [0, 1] [(-1), 0])
#guard yes (Vec.isPerpendicular dflt [(-1), 0] [0, (-1)])
#guard no (Vec.isPerpendicular dflt [1, 1] [(-1), (-1)])
#guard no (Vec.isPerpendicular dflt [1, 1] [1, 1])
#guard yes (Vec.isPerpendicular dflt [0, 0] [(-1), 5])
#guard yes (Vec.isPerpendicular dflt [0, 0, 0] [1, 1, 1])

-- test_vector.py: test_is_parallel
#guard yes (Vec.isParallel dflt [0, 1] [0, 1])
#guard no (Vec.isParallel dflt [1, 0] [0, 1])
#guard no (Vec.isParallel dflt [0, 1] [4, 0])
#guard yes (Vec.isParallel dflt [0, 1] [0, 5])
#guard yes (Vec.isParallel dflt [1, 1] [(-1), (-1)])
#guard yes (Vec.isParallel dflt [1, 1] [(-5), (-5)])
#guard yes (Vec.isParallel dflt [0, 1] [0, (-1)])
#guard no (Vec.isParallel dflt [0.1, 5, 4] [3, 2, 0])
#guard no (Vec.isParallel dflt [1, 1, 1, 1] [(-2), (-2), (-2), 4])
#guard yes (Vec.isParallel dflt [1, 1, 1, 1] [(-2), (-2), (-2), (-2)])
#guard no (Vec.isParallel dflt [5, 0, (-6), 7] [0, 1, 6, 3])
#guard yes (Vec.isParallel dflt [6, 0, 1, 0] [(-12), 0, (-2), 0])
#guard yes (Vec.isParallel dflt [0, 0] [1, 1])
#guard yes (Vec.isParallel dflt [5, 2] [0, 0])
#guard yes (Vec.isParallel dflt [5, (-3), 2, 6] [0, 0, 0, 0])

-- test_vector.py: test_side_vector
#guard ok (Vec.sideVector ([0, 0] : List F) [0, 0]) (· == 0)
#guard ok (Vec.sideVector ([0, 0] : List F) [0, 1]) (· == 0)
#guard ok (Vec.sideVector ([0, 0] : List F) [1, 1]) (· == 0)
#guard ok (Vec.sideVector ([0, 1] : List F) [0, 1]) (· == 0)
#guard ok (Vec.sideVector ([0, 1] : List F) [0, 9]) (· == 0)
#guard ok (Vec.sideVector ([0, 1] : List F) [0, (-20)]) (· == 0)
#guard ok (Vec.sideVector ([0, 1] : List F) [1, 1]) (· == 1)
#guard ok (Vec.sideVector ([0, 1] : List F) [38, 29]) (· == 1)
#guard ok (Vec.sideVector ([0, 1] : List F) [1, 0]) (· == 1)
#guard ok (Vec.sideVector ([0, 1] : List F) [1, (-100)]) (· == 1)
#guard ok (Vec.sideVector ([0, 1] : List F) [(-1), 1]) (· == -1)
#guard ok (Vec.sideVector ([0, 1] : List F) [(-1), 20]) (· == -1)
#guard ok (Vec.sideVector ([0, 1] : List F) [(-1), (-20)]) (· == -1)
#guard ok (Vec.sideVector ([0, 1] : List F) [(-5), 50]) (· == -1)

-- test_vector.py: test_side_vector_failure
#guard raises (Vec.sideVector ([0] : List F) [1]) "The vectors must be 2D."
#guard raises (Vec.sideVector ([0, 0, 0] : List F) [1, 1, 1]) "The vectors must be 2D."
#guard raises (Vec.sideVector ([0, 0, 0, 0] : List F) [1, 1, 1, 1]) "The vectors must be 2D."

-- test_vector.py: test_project_vector
#guard tvec (Vec.projectVector [1, 0] [1, 1]) [1, 0]
#guard tvec (Vec.projectVector [1, 0] [1, 5]) [1, 0]
#guard tvec (Vec.projectVector [1, 0] [5, 5]) [5, 0]
#guard tvec (Vec.projectVector [0, 1] [0, 1]) [0, 1]
#guard tvec (Vec.projectVector [0, (-5)] [0, 1]) [0, 1]
#guard tvec (Vec.projectVector [0, 15] [0, 1]) [0, 1]
#guard tvec (Vec.projectVector [0, 1] [1, 0]) [0, 0]
#guard tvec (Vec.projectVector [0, 9] [5, 0]) [0, 0]
#guard tvec (Vec.projectVector [0, 1] [0, 0]) [0, 0]

-- test_vector.py: test_different_direction
#guard tvec (Vec.differentDirection dflt [1]) [(-1)]
#guard tvec (Vec.differentDirection dflt [5]) [(-1)]
#guard tvec (Vec.differentDirection dflt [(-5)]) [1]
#guard tvec (Vec.differentDirection dflt [0, 1]) [1, 0]
#guard tvec (Vec.differentDirection dflt [1, 0]) [0, 1]
#guard tvec (Vec.differentDirection dflt [2, 0]) [0, 1]
#guard tvec (Vec.differentDirection dflt [5, 0]) [0, 1]
#guard tvec (Vec.differentDirection dflt [0, 2]) [1, 0]
#guard tvec (Vec.differentDirection dflt [0, 5]) [1, 0]
#guard tvec (Vec.differentDirection dflt [0, 0, 1]) [1, 0, 0]
#guard tvec (Vec.differentDirection dflt [1, 0, 0]) [0, 1, 0]
#guard tvec (Vec.differentDirection dflt [1, 0, 1]) [1, 0, 0]
#guard tvec (Vec.differentDirection dflt [1, 1, 0]) [1, 0, 0]
#guard tvec (Vec.differentDirection dflt [0, 0, 1, 1]) [1, 0, 0, 0]
#guard tvec (Vec.differentDirection dflt [5, 0, 1, 1]) [1, 0, 0, 0]

-- test_vector.py: test_different_direction_failure
#guard raises (Vec.differentDirection dflt ([0] : List F)) "The vector must not be the zero vector."
#guard raises (Vec.differentDirection dflt ([0, 0] : List F)) "The vector must not be the zero vector."
#guard raises (Vec.differentDirection dflt ([0, 0, 0] : List F)) "The vector must not be the zero vector."
#guard raises (Vec.differentDirection dflt ([0, 0, 0, 0] : List F)) "The vector must not be the zero vector."

-- test_line.py: test_from_points
#guard ok (Line.fromPoints [0, 0] [1, 0]) fun l => yes (Line.isClose dflt l (.line (L [0, 0] [1, 0])))
#guard ok (Line.fromPoints [0, 0] [1, 1]) fun l => yes (Line.isClose dflt l (.line (L [0, 0] [1, 1])))
#guard ok (Line.fromPoints [5, 2] [9, 2]) fun l => yes (Line.isClose dflt l (.line (L [5, 2] [4, 0])))
#guard ok (Line.fromPoints [1, 1] [0, 0]) fun l => yes (Line.isClose dflt l (.line (L [1, 1] [(-1), (-1)])))
#guard ok (Line.fromPoints [0, 0] [5, 0]) fun l => yes (Line.isClose dflt l (.line (L [0, 0] [5, 0])))
#guard ok (Line.fromPoints [0, 5, 9, 2] [4, 0, 0, 0]) fun l => yes (Line.isClose dflt l (.line (L [0, 5, 9, 2] [4, (-5), (-9), (-2)])))

-- test_line.py: test_from_points_failure
#guard raises (Line.fromPoints [0, 0] ([0, 0] : List F)) "The vector must not be the zero vector."
#guard raises (Line.fromPoints [1, 2] ([1, 2] : List F)) "The vector must not be the zero vector."
#guard raises (Line.fromPoints [(-1), 5] ([(-1), 5] : List F)) "The vector must not be the zero vector."
#guard raises (Line.fromPoints [5, 2, 9, 3] ([5, 2, 9, 3] : List F)) "The vector must not be the zero vector."

-- test_line.py: test_from_slope
#guard ok (Line.fromSlope 0 0) fun l => yes (Line.isClose dflt l (.line (L [0, 0] [1, 0])))
#guard ok (Line.fromSlope 0 1) fun l => yes (Line.isClose dflt l (.line (L [0, 1] [1, 0])))
#guard ok (Line.fromSlope 0 5) fun l => yes (Line.isClose dflt l (.line (L [0, 5] [1, 0])))
#guard ok (Line.fromSlope 1 0) fun l => yes (Line.isClose dflt l (.line (L [0, 0] [1, 1])))
#guard ok (Line.fromSlope (-5) 0) fun l => yes (Line.isClose dflt l (.line (L [0, 0] [1, (-5)])))
#guard ok (Line.fromSlope (-0.2857142857142857) 0) fun l => yes (Line.isClose dflt l (.line (L [0, 0] [7, (-2)])))
#guard ok (Line.fromSlope 0.75 0) fun l => yes (Line.isClose dflt l (.line (L [0, 0] [4, 3])))
#guard ok (Line.fromSlope 1.25 0) fun l => yes (Line.isClose dflt l (.line (L [0, 0] [4, 5])))

-- test_line.py: test_to_point
#guard tvec (Line.toPoint (L [0, 0] [1, 0]) 0) [0, 0]
#guard tvec (Line.toPoint (L [0, 0] [1, 0]) 1) [1, 0]
#guard tvec (Line.toPoint (L [0, 0] [1, 0]) 5) [5, 0]
#guard tvec (Line.toPoint (L [0, 0] [1, 0]) (-8)) [(-8), 0]
#guard tvec (Line.toPoint (L [5, 2, 1] [0, 2, 0]) 0) [5, 2, 1]
#guard tvec (Line.toPoint (L [5, 2, 1] [0, 9, 0]) 1) [5, 11, 1]
#guard tvec (Line.toPoint (L [5, 2, 1] [0, (-9), 0]) 1) [5, (-7), 1]
#guard tvec (Line.toPoint (L [6, (-3), 7, 8] [0, 8, 0, 0]) 1) [6, 5, 7, 8]
#guard tvec (Line.toPoint (L [6, (-3), 7, 8] [0, 8, 0, 0]) (-2)) [6, (-19), 7, 8]

-- test_line.py: test_is_coplanar
#guard yes (Line.isCoplanar none (L [0, 0] [1, 1]) (.line (L [0, 0] [0, 1])))
#guard yes (Line.isCoplanar none (L [(-6), 7] [5, 90]) (.line (L [1, 4] [(-4), 5])))
#guard no (Line.isCoplanar none (L [0, 0, 1] [1, 1, 0]) (.line (L [0, 0, 0] [0, 1, 0])))
#guard yes (Line.isCoplanar none (L [0, 0, 1] [1, 1, 0]) (.line (L [0, 0, 1] [0, 1, 0])))
#guard yes (Line.isCoplanar none (L [0, 0, 1] [1, 0, 1]) (.line (L [0, 0, 1] [2, 0, 2])))

-- test_line.py: test_is_coplanar_failure
#guard raisesType (Line.isCoplanar none (L [0, 0] [1, 1]) (.point [0, 0])) "The input must also be a line."
#guard raisesType (Line.isCoplanar none (L [0, 0, 0] [1, 1, 0]) (.plane (P [0, 0, 0] [0, 0, 1]))) "The input must also be a line."

-- test_line.py: test_project_point
#guard tvec (Line.projectPoint (L [0, 0] [0, 1]) [0, 5]) [0, 5] && tval (Line.distancePoint (L [0, 0] [0, 1]) [0, 5]) 0
#guard tvec (Line.projectPoint (L [0, 0] [0, 100]) [0, 5]) [0, 5] && tval (Line.distancePoint (L [0, 0] [0, 100]) [0, 5]) 0
#guard tvec (Line.projectPoint (L [0, 0] [0, 100]) [1, 5]) [0, 5] && tval (Line.distancePoint (L [0, 0] [0, 100]) [1, 5]) 1
#guard tvec (Line.projectPoint (L [0, 0] [1, 1]) [0, 1]) [0.5, 0.5] && tval (Line.distancePoint (L [0, 0] [1, 1]) [0, 1]) 0.7071067811865476
#guard tvec (Line.projectPoint (L [0, 0] [1, 1]) [1, 0]) [0.5, 0.5] && tval (Line.distancePoint (L [0, 0] [1, 1]) [1, 0]) 0.7071067811865476
#guard tvec (Line.projectPoint (L [0, 0] [1, 1]) [0, 2]) [1, 1] && tval (Line.distancePoint (L [0, 0] [1, 1]) [0, 2]) 1.4142135623730951
#guard tvec (Line.projectPoint (L [0, 0] [0, 100]) [(-15), 5]) [0, 5] && tval (Line.distancePoint (L [0, 0] [0, 100]) [(-15), 5]) 15
#guard tvec (Line.projectPoint (L [1, (-5)] [0, 3]) [50, 10]) [1, 10] && tval (Line.distancePoint (L [1, (-5)] [0, 3]) [50, 10]) 49

-- test_line.py: test_project_points
#guard sameM (Line.projectPoints (L [0, 0] [0, 1]) [[0, 5], [1, 5], [0, 1], [1, 0], [0, 2], [(-15), 5], [50, 10]]) (List.mapM (Line.projectPoint (L [0, 0] [0, 1])) [[0, 5], [1, 5], [0, 1], [1, 0], [0, 2], [(-15), 5], [50, 10]])
#guard sameM (Line.projectPoints (L [0, 0] [0, 100]) [[0, 5], [1, 5], [0, 1], [1, 0], [0, 2], [(-15), 5], [50, 10]]) (List.mapM (Line.projectPoint (L [0, 0] [0, 100])) [[0, 5], [1, 5], [0, 1], [1, 0], [0, 2], [(-15), 5], [50, 10]])
#guard sameM (Line.projectPoints (L [1, (-5)] [0, 3]) [[0, 5], [1, 5], [0, 1], [1, 0], [0, 2], [(-15), 5], [50, 10]]) (List.mapM (Line.projectPoint (L [1, (-5)] [0, 3])) [[0, 5], [1, 5], [0, 1], [1, 0], [0, 2], [(-15), 5], [50, 10]])

-- test_line.py: test_project_vector
#guard tvec (Line.projectVector (L [0, 0] [1, 0]) [1, 1]) [1, 0]
#guard tvec (Line.projectVector (L [(-56), 72] [1, 0]) [1, 1]) [1, 0]
#guard tvec (Line.projectVector (L [(-56), 72] [200, 0]) [5, 9]) [5, 0]
#guard tvec (Line.projectVector (L [(-56), 72] [200, 0]) [(-5), 9]) [(-5), 0]

-- test_line.py: test_side_point
#guard ok (Line.sidePoint (L [0, 0] [0, 1]) [0, 0]) (· == 0)
#guard ok (Line.sidePoint (L [0, 0] [0, 1]) [1, 0]) (· == 1)
#guard ok (Line.sidePoint (L [0, 0] [0, 1]) [1, 1]) (· == 1)
#guard ok (Line.sidePoint (L [0, 0] [0, 1]) [1, 10]) (· == 1)
#guard ok (Line.sidePoint (L [0, 0] [0, 1]) [1, (-10)]) (· == 1)
#guard ok (Line.sidePoint (L [0, 0] [0, 1]) [(-1), 0]) (· == -1)
#guard ok (Line.sidePoint (L [0, 0] [0, 1]) [(-1), 1]) (· == -1)
#guard ok (Line.sidePoint (L [0, 0] [0, 1]) [(-1), (-25)]) (· == -1)

-- test_line.py: test_distance_point
#guard tval (Line.distancePoint (L [0, 0] [1, 0]) [0, 0]) 0
#guard tval (Line.distancePoint (L [0, 0] [1, 0]) [8, 7]) 7
#guard tval (Line.distancePoint (L [0, 0] [1, 0]) [20, (-3)]) 3
#guard tval (Line.distancePoint (L [0, 0, 0] [1, 0, 0]) [20, (-3), 1]) 3.1622776601683795

-- test_line.py: test_distance_points
#guard sameV (Line.distancePoints (L [0, 0] [1, 0]) [[0, 0], [8, 7], [20, (-3)]]) (List.mapM (Line.distancePoint (L [0, 0] [1, 0])) [[0, 0], [8, 7], [20, (-3)]])
#guard sameV (Line.distancePoints (L [0, 0] [0, 1]) [[0, 0], [8, 7], [20, (-3)]]) (List.mapM (Line.distancePoint (L [0, 0] [0, 1])) [[0, 0], [8, 7], [20, (-3)]])
#guard sameV (Line.distancePoints (L [0, 1] [1, 0]) [[0, 0], [8, 7], [20, (-3)]]) (List.mapM (Line.distancePoint (L [0, 1] [1, 0])) [[0, 0], [8, 7], [20, (-3)]])
#guard sameV (Line.distancePoints (L [0, 0, 0] [1, 0, 0]) [[0, 0, 0], [8, 7, 13], [20, (-3), 1]]) (List.mapM (Line.distancePoint (L [0, 0, 0] [1, 0, 0])) [[0, 0, 0], [8, 7, 13], [20, (-3), 1]])

-- test_line.py: test_distance_line
#guard tval (Line.distanceLine (L [10, 2] [1, 1]) (L [5, (-3)] [(-1), 0])) 0
#guard tval (Line.distanceLine (L [0, 0] [1, 1]) (L [1, 0] [1, 2])) 0
#guard tval (Line.distanceLine (L [0, 0] [1, 0]) (L [0, 0] [(-1), 0])) 0
#guard tval (Line.distanceLine (L [0, 0] [1, 0]) (L [0, 0] [1, 0])) 0
#guard tval (Line.distanceLine (L [24, 0] [0, 1]) (L [3, 0] [0, (-5)])) 21
#guard tval (Line.distanceLine (L [0, 0] [1, 1]) (L [1, 0] [1, 1])) 0.7071067811865476
#guard tval (Line.distanceLine (L [0, 0, 0] [0, 1, 0]) (L [1, 0, 0] [0, (-4), 13])) 1

-- test_line.py: test_intersect_line
#guard tvec (Line.intersectLine (L [0, 0] [1, 0]) (L [0, 0] [1, 1]) true dflt) [0, 0]
#guard tvec (Line.intersectLine (L [0, 0] [1, 0]) (L [5, 5] [1, 1]) true dflt) [0, 0]
#guard tvec (Line.intersectLine (L [0, 0] [1, 0]) (L [9, 0] [1, 1]) true dflt) [9, 0]
#guard tvec (Line.intersectLine (L [0, 0] [1, 1]) (L [4, 0] [1, (-1)]) true dflt) [2, 2]
#guard tvec (Line.intersectLine (L [0, 0, 0] [1, 1, 1]) (L [4, 4, 0] [(-1), (-1), 1]) true dflt) [2, 2, 2]
#guard tvec (Line.intersectLine (L [0, 0, 0] [1, 1, 0]) (L [4, 5, 0] [(-1), 0, 0]) true dflt) [5, 5, 0]
#guard tvec (Line.intersectLine (L [0, 0, 0] [1, 1, 0]) (L [4, 5, 1] [(-1), 0, 0]) false dflt) [5, 5, 0]

-- test_line.py: test_intersect_line_failure
#guard raises (Line.intersectLine (L [0, 0] [1, 0]) (L [0, 0, 0] [1, 0, 0]) true dflt) "The lines must have the same dimension."
#guard raises (Line.intersectLine (L [0] [1]) (L [0, 0] [0, 1]) true dflt) "The lines must have the same dimension."
#guard raises (Line.intersectLine (L [0, 0] [1, 0]) (L [0, 0, 0, 0] [1, 0, 0, 0]) true dflt) "The lines must have the same dimension."
#guard raises (Line.intersectLine (L [0, 0, 0, 0] [1, 0, 0, 0]) (L [0, 0, 0, 0] [1, 0, 0, 0]) true dflt) "The line dimension cannot be greater than 3."
#guard raises (Line.intersectLine (L [0, 0] [1, 0]) (L [0, 0] [1, 0]) true dflt) "The lines must not be parallel."
#guard raises (Line.intersectLine (L [0, 0] [1, 0]) (L [5, 5] [1, 0]) true dflt) "The lines must not be parallel."
#guard raises (Line.intersectLine (L [0, 0] [0, 1]) (L [0, 0] [0, 5]) true dflt) "The lines must not be parallel."
#guard raises (Line.intersectLine (L [0, 0] [1, 0]) (L [0, 0] [(-1), 0]) true dflt) "The lines must not be parallel."
#guard raises (Line.intersectLine (L [0, 0] [1, 0]) (L [5, 5] [(-1), 0]) true dflt) "The lines must not be parallel."
#guard raises (Line.intersectLine (L [0, 0, 0] [1, 1, 1]) (L [0, 1, 0] [(-1), 0, 0]) true dflt) "The lines must be coplanar."

-- test_line.py: test_sum_squares
#guard tval (Line.sumSquares (L [0, 0] [1, 0]) [[0, 0], [10, 0]]) 0
#guard tval (Line.sumSquares (L [0, 0] [5, 0]) [[0, 0], [0, 1]]) 1
#guard tval (Line.sumSquares (L [0, 0] [1, 0]) [[0, 1], [0, (-1)]]) 2
#guard tval (Line.sumSquares (L [0, 0] [1, 0]) [[0, 5]]) 25
#guard tval (Line.sumSquares (L [0, 0] [1, 0]) [[0, 3], [0, (-2)]]) 13
#guard tval (Line.sumSquares (L [0, 0] [(-20), 0]) [[1, 3], [2, (-2)], [3, (-5)]]) 38

-- test_line.py: test_best_fit
#guard ok (Line.bestFit [[0, 0], [1, 0]] none false) fun r => yes (Line.isClose ⟨1e-9, 1e-9⟩ r.1 (.line (L [0.5, 0] [1, 0]))) && tightL r.1.point [0.5, 0]
#guard ok (Line.bestFit [[1, 0], [0, 0]] none false) fun r => yes (Line.isClose ⟨1e-9, 1e-9⟩ r.1 (.line (L [0.5, 0] [(-1), 0]))) && tightL r.1.point [0.5, 0]
#guard ok (Line.bestFit [[0, 0], [10, 0]] none false) fun r => yes (Line.isClose ⟨1e-9, 1e-9⟩ r.1 (.line (L [5, 0] [1, 0]))) && tightL r.1.point [5, 0]
#guard ok (Line.bestFit [[0, 0], [(-10), 0]] none false) fun r => yes (Line.isClose ⟨1e-9, 1e-9⟩ r.1 (.line (L [(-5), 0] [(-1), 0]))) && tightL r.1.point [(-5), 0]
#guard ok (Line.bestFit [[0, 0], [1, 1], [2, 2]] none false) fun r => yes (Line.isClose ⟨1e-9, 1e-9⟩ r.1 (.line (L [1, 1] [1, 1]))) && tightL r.1.point [1, 1]
#guard ok (Line.bestFit [[2, 2], [1, 1], [0, 0]] none false) fun r => yes (Line.isClose ⟨1e-9, 1e-9⟩ r.1 (.line (L [1, 1] [(-1), (-1)]))) && tightL r.1.point [1, 1]
#guard ok (Line.bestFit [[0, 0], [0, 1], [1, 0], [1, 1]] none false) fun r => yes (Line.isClose ⟨1e-9, 1e-9⟩ r.1 (.line (L [0.5, 0.5] [1, 0]))) && tightL r.1.point [0.5, 0.5]

-- test_line.py: test_best_fit_with_error
#guard ok (Line.bestFit [[0, 0], [1, 0]] none false) fun r => yes (Line.isClose ⟨1e-9, 1e-9⟩ r.1 (.line (L [0.5, 0] [1, 0]))) && tightL r.1.point [0.5, 0] && tight r.2 0
#guard ok (Line.bestFit [[1, 0], [0, 0]] none false) fun r => yes (Line.isClose ⟨1e-9, 1e-9⟩ r.1 (.line (L [0.5, 0] [(-1), 0]))) && tightL r.1.point [0.5, 0] && tight r.2 0
#guard ok (Line.bestFit [[0, 0], [1, 1], [2, 2]] none false) fun r => yes (Line.isClose ⟨1e-9, 1e-9⟩ r.1 (.line (L [1, 1] [1, 1]))) && tightL r.1.point [1, 1] && tight r.2 0
#guard ok (Line.bestFit [[0, 0], [0, 1], [1, 0], [1, 1]] none false) fun r => yes (Line.isClose ⟨1e-9, 1e-9⟩ r.1 (.line (L [0.5, 0.5] [1, 0]))) && tightL r.1.point [0.5, 0.5] && tight r.2 1
#guard ok (Line.bestFit [[0, 0], [0, 2], [2, 0], [2, 2]] none false) fun r => yes (Line.isClose ⟨1e-9, 1e-9⟩ r.1 (.line (L [1, 1] [1, 0]))) && tightL r.1.point [1, 1] && tight r.2 4
#guard ok (Line.bestFit [[0, 0], [0, 3], [3, 0], [3, 3]] none false) fun r => yes (Line.isClose ⟨1e-9, 1e-9⟩ r.1 (.line (L [1.5, 1.5] [1, 0]))) && tightL r.1.point [1.5, 1.5] && tight r.2 9

-- test_line.py: test_best_fit_failure
#guard raises (Line.bestFit ([[]] : List (List F)) none false) "The array must not be empty."
#guard raises (Line.bestFit ([[0, 0]] : List (List F)) none false) "The points must not be concurrent."
#guard raises (Line.bestFit ([[0, 0, 0]] : List (List F)) none false) "The points must not be concurrent."
#guard raises (Line.bestFit ([[1, 2], [1, 2], [1, 2]] : List (List F)) none false) "The points must not be concurrent."

-- test_line.py: test_transform_points
#guard tvec (Line.transformPoints (L [0, 0] [1, 0]) [[1, 0], [2, 0], [3, 0], [4, 0]]) [1, 2, 3, 4]
#guard tvec (Line.transformPoints (L [3, 0] [1, 0]) [[1, 0], [2, 0], [3, 0], [4, 0]]) [(-2), (-1), 0, 1]
#guard tvec (Line.transformPoints (L [0, 0] [1, 1]) [[1, 0], [2, 0], [3, 0], [0, 1], [0, 2], [0, 3]]) [0.7071067811865476, 1.4142135623730951, 2.121320343559643, 0.7071067811865476, 1.4142135623730951, 2.121320343559643]
#guard tvec (Line.transformPoints (L [0, 0] [3, 3]) [[1, 0], [2, 0], [3, 0], [0, 1], [0, 2], [0, 3]]) [0.7071067811865476, 1.4142135623730951, 2.121320343559643, 0.7071067811865476, 1.4142135623730951, 2.121320343559643]
#guard tvec (Line.transformPoints (L [0, 0, 0] [1, 0, 0]) [[1, 20, 3], [2, (-5), 8], [3, 59, 100], [4, 0, 14]]) [1, 2, 3, 4]
#guard tvec (Line.transformPoints (L [0, 0, 0] [0, 1, 0]) [[1, 20, 3], [2, (-5), 8], [3, 59, 100], [4, 0, 14]]) [20, (-5), 59, 0]

-- test_plane.py: test_from_vectors
#guard ok (Plane.fromVectors dflt [0, 0] [1, 0] [0, 1]) fun p => yes (Plane.isClose dflt p (.plane (P [0, 0, 0] [0, 0, 1]))) && tightL p.normal [0, 0, 1]
#guard ok (Plane.fromVectors dflt [1, 2] [1, 0] [0, 1]) fun p => yes (Plane.isClose dflt p (.plane (P [1, 2, 0] [0, 0, 1]))) && tightL p.normal [0, 0, 1]
#guard ok (Plane.fromVectors dflt [0, 0] [0, 1] [1, 0]) fun p => yes (Plane.isClose dflt p (.plane (P [0, 0, 0] [0, 0, (-1)]))) && tightL p.normal [0, 0, (-1)]
#guard ok (Plane.fromVectors dflt [0, 0] [2, 0] [0, 1]) fun p => yes (Plane.isClose dflt p (.plane (P [0, 0, 0] [0, 0, 2]))) && tightL p.normal [0, 0, 2]
#guard ok (Plane.fromVectors dflt [0, 0] [2, 0] [0, 2]) fun p => yes (Plane.isClose dflt p (.plane (P [0, 0, 0] [0, 0, 4]))) && tightL p.normal [0, 0, 4]
#guard ok (Plane.fromVectors dflt [1, 2, 3] [2, 0] [0, 2]) fun p => yes (Plane.isClose dflt p (.plane (P [1, 2, 3] [0, 0, 4]))) && tightL p.normal [0, 0, 4]
#guard ok (Plane.fromVectors dflt [(-3), 2, 6] [1, 4, 6] [(-1), 5, 8]) fun p => yes (Plane.isClose dflt p (.plane (P [(-3), 2, 6] [2, (-14), 9]))) && tightL p.normal [2, (-14), 9]

-- test_plane.py: test_from_vectors_failure
#guard raises (Plane.fromVectors dflt [0, 0] [1, 0] [1, 0]) "The vectors must not be parallel."
#guard raises (Plane.fromVectors dflt [2, 3] [1, 0] [1, 0]) "The vectors must not be parallel."
#guard raises (Plane.fromVectors dflt [0, 0] [0, 1] [0, 1]) "The vectors must not be parallel."
#guard raises (Plane.fromVectors dflt [0, 0] [1, 1] [(-1), (-1)]) "The vectors must not be parallel."
#guard raises (Plane.fromVectors dflt [0, 0] [5, 3] [(-5), (-3)]) "The vectors must not be parallel."
#guard raises (Plane.fromVectors dflt [0, 0, 0] [1, 0, 0] [1, 0, 0]) "The vectors must not be parallel."

-- test_plane.py: test_from_points
#guard ok (Plane.fromPoints none [0, 0] [1, 0] [0, 1]) fun p => yes (Plane.isClose dflt p (.plane (P [0, 0, 0] [0, 0, 1]))) && tightL p.point [0, 0, 0]
#guard ok (Plane.fromPoints none [0, 0] [9, 0] [0, 9]) fun p => yes (Plane.isClose dflt p (.plane (P [0, 0, 0] [0, 0, 1]))) && tightL p.point [0, 0, 0]
#guard ok (Plane.fromPoints none [0, 0.1] [1, 0] [0, 1]) fun p => yes (Plane.isClose dflt p (.plane (P [0, 0.1, 0] [0, 0, 1]))) && tightL p.point [0, 0.1, 0]
#guard ok (Plane.fromPoints none [0, 0] [0, 1] [1, 0]) fun p => yes (Plane.isClose dflt p (.plane (P [0, 0, 0] [0, 0, (-1)]))) && tightL p.point [0, 0, 0]

-- test_plane.py: test_from_points_failure
#guard raises (Plane.fromPoints none [0, 0] [0, 0] ([0, 0] : List F)) "The points must not be collinear."
#guard raises (Plane.fromPoints none [0, 0] [0, 1] ([0, 2] : List F)) "The points must not be collinear."
#guard raises (Plane.fromPoints none [(-2), 1] [0, 2] ([2, 3] : List F)) "The points must not be collinear."
#guard raises (Plane.fromPoints none [0, 0, 0] [1, 1, 1] ([(-2), (-2), (-2)] : List F)) "The points must not be collinear."
#guard raises (Plane.fromPoints none [0, 1, 2] [1, 2, 3] ([4, 5, 6] : List F)) "The points must not be collinear."

-- test_plane.py: test_cartesian
#guard ok (Plane.cartesian (P [(-1), 2] [22, (-3)])) fun r => tightL [r.1, r.2.1, r.2.2.1, r.2.2.2] [22, (-3), 0, 28]
#guard ok (Plane.cartesian (P [0, 0, 0] [0, 0, 1])) fun r => tightL [r.1, r.2.1, r.2.2.1, r.2.2.2] [0, 0, 1, 0]
#guard ok (Plane.cartesian (P [0, 0, 0] [0, 0, 25])) fun r => tightL [r.1, r.2.1, r.2.2.1, r.2.2.2] [0, 0, 25, 0]
#guard ok (Plane.cartesian (P [1, 2, 0] [5, 4, 6])) fun r => tightL [r.1, r.2.1, r.2.2.1, r.2.2.2] [5, 4, 6, (-13)]
#guard ok (Plane.cartesian (P [(-4), 5, 8] [22, (-3), 6])) fun r => tightL [r.1, r.2.1, r.2.2.1, r.2.2.2] [22, (-3), 6, 55]

-- test_plane.py: test_cartesian_failure
#guard raises (Plane.cartesian (P [0, 0, 0, 0] [1, 2, 3, 4])) "The plane dimension must be <= 3."
#guard raises (Plane.cartesian (P [1, 2, 3, 4] [1, 2, 3, 4])) "The plane dimension must be <= 3."

-- test_plane.py: test_project_point
#guard tvec (Plane.projectPoint (P [0, 0, 0] [0, 0, 1]) [0, 0, 0]) [0, 0, 0] && tval (Plane.distancePointSigned (P [0, 0, 0] [0, 0, 1]) [0, 0, 0]) 0
#guard tvec (Plane.projectPoint (P [0, 0, 0] [0, 0, (-1)]) [0, 0, 0]) [0, 0, 0] && tval (Plane.distancePointSigned (P [0, 0, 0] [0, 0, (-1)]) [0, 0, 0]) 0
#guard tvec (Plane.projectPoint (P [0, 0, 0] [0, 0, 1]) [0, 0, 1]) [0, 0, 0] && tval (Plane.distancePointSigned (P [0, 0, 0] [0, 0, 1]) [0, 0, 1]) 1
#guard tvec (Plane.projectPoint (P [0, 0, 0] [0, 0, (-1)]) [0, 0, 1]) [0, 0, 0] && tval (Plane.distancePointSigned (P [0, 0, 0] [0, 0, (-1)]) [0, 0, 1]) (-1)
#guard tvec (Plane.projectPoint (P [0, 0, 0] [0, 0, 50]) [0, 0, 1]) [0, 0, 0] && tval (Plane.distancePointSigned (P [0, 0, 0] [0, 0, 50]) [0, 0, 1]) 1
#guard tvec (Plane.projectPoint (P [0, 0, 0] [0, 0, (-50)]) [0, 0, 1]) [0, 0, 0] && tval (Plane.distancePointSigned (P [0, 0, 0] [0, 0, (-50)]) [0, 0, 1]) (-1)
#guard tvec (Plane.projectPoint (P [0, 0, 0] [0, 0, 50]) [0, 0, 5]) [0, 0, 0] && tval (Plane.distancePointSigned (P [0, 0, 0] [0, 0, 50]) [0, 0, 5]) 5
#guard tvec (Plane.projectPoint (P [0, 0, 0] [0, 0, (-50)]) [0, 0, 5]) [0, 0, 0] && tval (Plane.distancePointSigned (P [0, 0, 0] [0, 0, (-50)]) [0, 0, 5]) (-5)
#guard tvec (Plane.projectPoint (P [0, 0, 0] [0, 0, 1]) [5, (-4), 1]) [5, (-4), 0] && tval (Plane.distancePointSigned (P [0, 0, 0] [0, 0, 1]) [5, (-4), 1]) 1

-- test_plane.py: test_project_points
#guard sameM (Plane.projectPoints (P [0, 0, 0] [0, 0, 1]) [[5, 9, 1], [6, 3, 9], [8, 8, 8], [4, 2, 6], [1, 3, 10]]) (List.mapM (Plane.projectPoint (P [0, 0, 0] [0, 0, 1])) [[5, 9, 1], [6, 3, 9], [8, 8, 8], [4, 2, 6], [1, 3, 10]]) && sameV (Plane.distancePoints (P [0, 0, 0] [0, 0, 1]) [[5, 9, 1], [6, 3, 9], [8, 8, 8], [4, 2, 6], [1, 3, 10]]) (List.mapM (Plane.distancePoint (P [0, 0, 0] [0, 0, 1])) [[5, 9, 1], [6, 3, 9], [8, 8, 8], [4, 2, 6], [1, 3, 10]]) && sameV (Plane.distancePointsSigned (P [0, 0, 0] [0, 0, 1]) [[5, 9, 1], [6, 3, 9], [8, 8, 8], [4, 2, 6], [1, 3, 10]]) (List.mapM (Plane.distancePointSigned (P [0, 0, 0] [0, 0, 1])) [[5, 9, 1], [6, 3, 9], [8, 8, 8], [4, 2, 6], [1, 3, 10]])
#guard sameM (Plane.projectPoints (P [0, 0, 0] [0, 0, (-1)]) [[5, 9, 1], [6, 3, 9], [8, 8, 8], [4, 2, 6], [1, 3, 10]]) (List.mapM (Plane.projectPoint (P [0, 0, 0] [0, 0, (-1)])) [[5, 9, 1], [6, 3, 9], [8, 8, 8], [4, 2, 6], [1, 3, 10]]) && sameV (Plane.distancePoints (P [0, 0, 0] [0, 0, (-1)]) [[5, 9, 1], [6, 3, 9], [8, 8, 8], [4, 2, 6], [1, 3, 10]]) (List.mapM (Plane.distancePoint (P [0, 0, 0] [0, 0, (-1)])) [[5, 9, 1], [6, 3, 9], [8, 8, 8], [4, 2, 6], [1, 3, 10]]) && sameV (Plane.distancePointsSigned (P [0, 0, 0] [0, 0, (-1)]) [[5, 9, 1], [6, 3, 9], [8, 8, 8], [4, 2, 6], [1, 3, 10]]) (List.mapM (Plane.distancePointSigned (P [0, 0, 0] [0, 0, (-1)])) [[5, 9, 1], [6, 3, 9], [8, 8, 8], [4, 2, 6], [1, 3, 10]])
#guard sameM (Plane.projectPoints (P [0, 0, 0] [0, 0, 50]) [[5, 9, 1], [6, 3, 9], [8, 8, 8], [4, 2, 6], [1, 3, 10]]) (List.mapM (Plane.projectPoint (P [0, 0, 0] [0, 0, 50])) [[5, 9, 1], [6, 3, 9], [8, 8, 8], [4, 2, 6], [1, 3, 10]]) && sameV (Plane.distancePoints (P [0, 0, 0] [0, 0, 50]) [[5, 9, 1], [6, 3, 9], [8, 8, 8], [4, 2, 6], [1, 3, 10]]) (List.mapM (Plane.distancePoint (P [0, 0, 0] [0, 0, 50])) [[5, 9, 1], [6, 3, 9], [8, 8, 8], [4, 2, 6], [1, 3, 10]]) && sameV (Plane.distancePointsSigned (P [0, 0, 0] [0, 0, 50]) [[5, 9, 1], [6, 3, 9], [8, 8, 8], [4, 2, 6], [1, 3, 10]]) (List.mapM (Plane.distancePointSigned (P [0, 0, 0] [0, 0, 50])) [[5, 9, 1], [6, 3, 9], [8, 8, 8], [4, 2, 6], [1, 3, 10]])
#guard sameM (Plane.projectPoints (P [0, 0, 0] [0, 0, (-50)]) [[5, 9, 1], [6, 3, 9], [8, 8, 8], [4, 2, 6], [1, 3, 10]]) (List.mapM (Plane.projectPoint (P [0, 0, 0] [0, 0, (-50)])) [[5, 9, 1], [6, 3, 9], [8, 8, 8], [4, 2, 6], [1, 3, 10]]) && sameV (Plane.distancePoints (P [0, 0, 0] [0, 0, (-50)]) [[5, 9, 1], [6, 3, 9], [8, 8, 8], [4, 2, 6], [1, 3, 10]]) (List.mapM (Plane.distancePoint (P [0, 0, 0] [0, 0, (-50)])) [[5, 9, 1], [6, 3, 9], [8, 8, 8], [4, 2, 6], [1, 3, 10]]) && sameV (Plane.distancePointsSigned (P [0, 0, 0] [0, 0, (-50)]) [[5, 9, 1], [6, 3, 9], [8, 8, 8], [4, 2, 6], [1, 3, 10]]) (List.mapM (Plane.distancePointSigned (P [0, 0, 0] [0, 0, (-50)])) [[5, 9, 1], [6, 3, 9], [8, 8, 8], [4, 2, 6], [1, 3, 10]])

-- test_plane.py: test_project_vector
#guard tvec (Plane.projectVector (P [0, 0, 0] [0, 0, 1]) [1, 1, 0]) [1, 1, 0]
#guard tvec (Plane.projectVector (P [0, 0, 0] [0, 0, 1]) [1, 1, 1]) [1, 1, 0]
#guard tvec (Plane.projectVector (P [0, 0, 0] [0, 0, 1]) [7, (-5), 20]) [7, (-5), 0]
#guard tvec (Plane.projectVector (P [0, 0, 0] [0, 0, (-10)]) [7, (-5), 20]) [7, (-5), 0]

-- test_plane.py: test_project_line
#guard line (Plane.projectLine dflt (P [0, 0, 0] [0, 0, 1]) (L [0, 0, 0] [1, 0, 0])) [0, 0, 0] [1, 0, 0]
#guard line (Plane.projectLine dflt (P [0, 0, 0] [0, 0, 1]) (L [0, 0, 5] [1, 0, 0])) [0, 0, 0] [1, 0, 0]
#guard line (Plane.projectLine dflt (P [0, 0, 0] [0, 0, 1]) (L [2, 3, (-5)] [1, 0, 0])) [2, 3, 0] [1, 0, 0]
#guard line (Plane.projectLine dflt (P [0, 0, 0] [1, 0, 0]) (L [1, 0, 0] [0, 1, 0])) [0, 0, 0] [0, 1, 0]
#guard line (Plane.projectLine dflt (P [0, 0, 0] [0, (-1), 1]) (L [0, 0, 0] [0, 1, 0])) [0, 0, 0] [0, 0.5, 0.5]
#guard line (Plane.projectLine dflt (P [0, 1, 0] [0, 1, 0]) (L [0, (-1), 0] [1, (-2), 0])) [0, 1, 0] [1, 0, 0]

-- test_plane.py: test_project_line_failure
#guard raises (Plane.projectLine dflt (P [0, 0, 0] [0, 0, 1]) (L [0, 0, 0] [0, 0, 1])) "The line and plane must not be perpendicular."
#guard raises (Plane.projectLine dflt (P [0, 0, 5] [(-1), 0, 0]) (L [0, 0, 0] [5, 0, 0])) "The line and plane must not be perpendicular."
#guard raises (Plane.projectLine dflt (P [1, 2, 3] [1, 2, 4]) (L [4, 5, 6] [(-2), (-4), (-8)])) "The line and plane must not be perpendicular."

-- test_plane.py: test_distance_point
#guard tval (Plane.distancePointSigned (P [0, 0, 0] [0, 0, 1]) [0, 0, 0]) 0 && tval (Plane.distancePoint (P [0, 0, 0] [0, 0, 1]) [0, 0, 0]) 0
#guard tval (Plane.distancePointSigned (P [0, 0, 0] [0, 0, 1]) [50, (-67), 0]) 0 && tval (Plane.distancePoint (P [0, 0, 0] [0, 0, 1]) [50, (-67), 0]) 0
#guard tval (Plane.distancePointSigned (P [0, 0, 1] [0, 0, 1]) [50, (-67), 0]) (-1) && tval (Plane.distancePoint (P [0, 0, 1] [0, 0, 1]) [50, (-67), 0]) 1
#guard tval (Plane.distancePointSigned (P [0, 0, 0] [0, 0, 1]) [5, 3, 8]) 8 && tval (Plane.distancePoint (P [0, 0, 0] [0, 0, 1]) [5, 3, 8]) 8
#guard tval (Plane.distancePointSigned (P [0, 0, 0] [0, 0, (-50)]) [5, 3, 7]) (-7) && tval (Plane.distancePoint (P [0, 0, 0] [0, 0, (-50)]) [5, 3, 7]) 7
#guard tval (Plane.distancePointSigned (P [0, 0, 0] [0, 0, 1]) [5, 3, (-8)]) (-8) && tval (Plane.distancePoint (P [0, 0, 0] [0, 0, 1]) [5, 3, (-8)]) 8

-- test_plane.py: test_distance_points
#guard sameM (Plane.projectPoints (P [0, 0, 0] [0, 0, 1]) [[0, 0, 0], [50, (-67), 0], [50, (-67), 0], [5, 3, 8], [5, 3, 7], [5, 3, (-8)]]) (List.mapM (Plane.projectPoint (P [0, 0, 0] [0, 0, 1])) [[0, 0, 0], [50, (-67), 0], [50, (-67), 0], [5, 3, 8], [5, 3, 7], [5, 3, (-8)]]) && sameV (Plane.distancePoints (P [0, 0, 0] [0, 0, 1]) [[0, 0, 0], [50, (-67), 0], [50, (-67), 0], [5, 3, 8], [5, 3, 7], [5, 3, (-8)]]) (List.mapM (Plane.distancePoint (P [0, 0, 0] [0, 0, 1])) [[0, 0, 0], [50, (-67), 0], [50, (-67), 0], [5, 3, 8], [5, 3, 7], [5, 3, (-8)]]) && sameV (Plane.distancePointsSigned (P [0, 0, 0] [0, 0, 1]) [[0, 0, 0], [50, (-67), 0], [50, (-67), 0], [5, 3, 8], [5, 3, 7], [5, 3, (-8)]]) (List.mapM (Plane.distancePointSigned (P [0, 0, 0] [0, 0, 1])) [[0, 0, 0], [50, (-67), 0], [50, (-67), 0], [5, 3, 8], [5, 3, 7], [5, 3, (-8)]])
#guard sameM (Plane.projectPoints (P [0, 0, 1] [0, 0, 1]) [[0, 0, 0], [50, (-67), 0], [50, (-67), 0], [5, 3, 8], [5, 3, 7], [5, 3, (-8)]]) (List.mapM (Plane.projectPoint (P [0, 0, 1] [0, 0, 1])) [[0, 0, 0], [50, (-67), 0], [50, (-67), 0], [5, 3, 8], [5, 3, 7], [5, 3, (-8)]]) && sameV (Plane.distancePoints (P [0, 0, 1] [0, 0, 1]) [[0, 0, 0], [50, (-67), 0], [50, (-67), 0], [5, 3, 8], [5, 3, 7], [5, 3, (-8)]]) (List.mapM (Plane.distancePoint (P [0, 0, 1] [0, 0, 1])) [[0, 0, 0], [50, (-67), 0], [50, (-67), 0], [5, 3, 8], [5, 3, 7], [5, 3, (-8)]]) && sameV (Plane.distancePointsSigned (P [0, 0, 1] [0, 0, 1]) [[0, 0, 0], [50, (-67), 0], [50, (-67), 0], [5, 3, 8], [5, 3, 7], [5, 3, (-8)]]) (List.mapM (Plane.distancePointSigned (P [0, 0, 1] [0, 0, 1])) [[0, 0, 0], [50, (-67), 0], [50, (-67), 0], [5, 3, 8], [5, 3, 7], [5, 3, (-8)]])
#guard sameM (Plane.projectPoints (P [0, 0, 0] [0, 0, (-50)]) [[0, 0, 0], [50, (-67), 0], [50, (-67), 0], [5, 3, 8], [5, 3, 7], [5, 3, (-8)]]) (List.mapM (Plane.projectPoint (P [0, 0, 0] [0, 0, (-50)])) [[0, 0, 0], [50, (-67), 0], [50, (-67), 0], [5, 3, 8], [5, 3, 7], [5, 3, (-8)]]) && sameV (Plane.distancePoints (P [0, 0, 0] [0, 0, (-50)]) [[0, 0, 0], [50, (-67), 0], [50, (-67), 0], [5, 3, 8], [5, 3, 7], [5, 3, (-8)]]) (List.mapM (Plane.distancePoint (P [0, 0, 0] [0, 0, (-50)])) [[0, 0, 0], [50, (-67), 0], [50, (-67), 0], [5, 3, 8], [5, 3, 7], [5, 3, (-8)]]) && sameV (Plane.distancePointsSigned (P [0, 0, 0] [0, 0, (-50)]) [[0, 0, 0], [50, (-67), 0], [50, (-67), 0], [5, 3, 8], [5, 3, 7], [5, 3, (-8)]]) (List.mapM (Plane.distancePointSigned (P [0, 0, 0] [0, 0, (-50)])) [[0, 0, 0], [50, (-67), 0], [50, (-67), 0], [5, 3, 8], [5, 3, 7], [5, 3, (-8)]])

-- test_plane.py: test_side_point
#guard ok (Plane.sidePoint (P [0, 0] [1, 1]) [2, 2]) (· == 1)
#guard ok (Plane.sidePoint (P [0, 0] [1, 1]) [0, 0]) (· == 0)
#guard ok (Plane.sidePoint (P [0, 1] [1, 1]) [0, 0]) (· == -1)
#guard ok (Plane.sidePoint (P [0, 0, 0] [1, 0, 0]) [0, 0, 0]) (· == 0)
#guard ok (Plane.sidePoint (P [0, 0, 0] [1, 0, 0]) [1, 0, 0]) (· == 1)
#guard ok (Plane.sidePoint (P [0, 0, 0] [1, 0, 0]) [(-1), 0, 0]) (· == -1)
#guard ok (Plane.sidePoint (P [0, 0, 0] [1, 0, 0]) [25, 53, (-105)]) (· == 1)
#guard ok (Plane.sidePoint (P [0, 0, 0] [1, 0, 0]) [(-2), 53, (-105)]) (· == -1)
#guard ok (Plane.sidePoint (P [0, 0, 0] [1, 0, 0]) [0, 38, 19]) (· == 0)
#guard ok (Plane.sidePoint (P [0, 0, 0] [1, 0, 0]) [0, 101, (-45)]) (· == 0)
#guard ok (Plane.sidePoint (P [0, 0, 0] [(-1), 0, 0]) [1, 0, 0]) (· == -1)
#guard ok (Plane.sidePoint (P [5, 0, 0] [1, 0, 0]) [1, 0, 0]) (· == -1)

-- test_plane.py: test_intersect_line
#guard tvec (Plane.intersectLine dflt (P [0, 0, 0] [1, 0, 0]) (L [0, 0, 0] [1, 0, 0])) [0, 0, 0]
#guard tvec (Plane.intersectLine dflt (P [0, 0, 0] [0, 0, 1]) (L [0, 0, 0] [0, 0, 1])) [0, 0, 0]
#guard tvec (Plane.intersectLine dflt (P [0, 0, 0] [0, 0, 1]) (L [5, (-3), 0] [0, 0, 1])) [5, (-3), 0]

-- test_plane.py: test_intersect_line_failure
#guard raises (Plane.intersectLine dflt (P [0, 0, 0] [0, 0, 1]) (L [0, 0, 0] [1, 0, 0])) "The line and plane must not be parallel."
#guard raises (Plane.intersectLine dflt (P [0, 0, 0] [1, 0, 0]) (L [0, 0, 0] [0, 0, 1])) "The line and plane must not be parallel."
#guard raises (Plane.intersectLine dflt (P [0, 0, 0] [0, 1, 0]) (L [0, 0, 0] [0, 0, 1])) "The line and plane must not be parallel."

-- test_plane.py: test_intersect_plane
#guard ok (Plane.intersectPlane dflt (P [0, 0, 0] [0, 0, 1]) (P [0, 0, 0] [1, 0, 0])) fun l => yes (Line.isClose dflt l (.line (L [0, 0, 0] [0, 1, 0])))
#guard ok (Plane.intersectPlane dflt (P [0, 0, 0] [0, 0, 1]) (P [0, 0, 1] [1, 0, 1])) fun l => yes (Line.isClose dflt l (.line (L [1, 0, 0] [0, 1, 0])))
#guard ok (Plane.intersectPlane dflt (P [0, 0, 0] [(-1), 1, 0]) (P [8, 0, 0] [1, 1, 0])) fun l => yes (Line.isClose dflt l (.line (L [4, 4, 0] [0, 0, (-1)])))

-- test_plane.py: test_intersect_plane_failure
#guard raises (Plane.intersectPlane dflt (P [0, 0, 0] [1, 0, 0]) (P [0, 0, 0] [1, 0, 0])) "The planes must not be parallel."
#guard raises (Plane.intersectPlane dflt (P [1, 0, 0] [1, 0, 0]) (P [0, 0, 0] [1, 0, 0])) "The planes must not be parallel."
#guard raises (Plane.intersectPlane dflt (P [0, 0, 5] [0, 0, 1]) (P [4, 2, 4] [0, 0, 3])) "The planes must not be parallel."
#guard raises (Plane.intersectPlane dflt (P [0, 0, (-5)] [0, 0, 1]) (P [4, 2, 4] [0, 0, 3])) "The planes must not be parallel."

-- test_plane.py: test_sum_squares_plane
#guard tval (Plane.sumSquares (P [0, 0, 0] [0, 0, 1]) [[25, 3, 0], [(-6), 5, 0]]) 0
#guard tval (Plane.sumSquares (P [25, 9, 0] [0, 0, 1]) [[25, 3, 0], [(-6), 5, 0]]) 0
#guard tval (Plane.sumSquares (P [25, 9, (-2)] [0, 0, 1]) [[25, 3, 0], [(-6), 5, 0]]) 8
#guard tval (Plane.sumSquares (P [0, 0, 0] [0, 0, 1]) [[25, 3, 2], [(-6), 5, 0]]) 4
#guard tval (Plane.sumSquares (P [0, 0, 0] [0, 0, 5]) [[25, 3, 2], [(-6), 5, 0]]) 4
#guard tval (Plane.sumSquares (P [0, 0, 0] [0, 0, (-5)]) [[25, 3, 2], [(-6), 5, 0]]) 4

-- test_plane.py: test_best_fit
#guard ok (do Plane.bestFit (← setDimension2D 3 [[0, 0], [1, 1], [0, 2]]) none false) fun r => yes (Plane.isClose ⟨1e-9, 1e-9⟩ r.1 (.plane (P [0.3333333333333333, 1, 0] [0, 0, 1]))) && tightL r.1.point [0.3333333333333333, 1, 0]
#guard ok (do Plane.bestFit (← setDimension2D 3 [[0, 0], [0, 1], [1, 0], [1, 1]]) none false) fun r => yes (Plane.isClose ⟨1e-9, 1e-9⟩ r.1 (.plane (P [0.5, 0.5, 0] [0, 0, 1]))) && tightL r.1.point [0.5, 0.5, 0]
#guard ok (do Plane.bestFit (← setDimension2D 3 [[0, 0, 0], [1, 0, 0], [0, 0, 1]]) none false) fun r => yes (Plane.isClose ⟨1e-9, 1e-9⟩ r.1 (.plane (P [0.3333333333333333, 0, 0.3333333333333333] [0, 1, 0]))) && tightL r.1.point [0.3333333333333333, 0, 0.3333333333333333]
#guard ok (do Plane.bestFit (← setDimension2D 3 [[1, 0, 0], [(-1), 0, 0], [1, 1, 1], [(-1), 1, 1]]) none false) fun r => yes (Plane.isClose ⟨1e-9, 1e-9⟩ r.1 (.plane (P [0, 0.5, 0.5] [0, 1, (-1)]))) && tightL r.1.point [0, 0.5, 0.5]
#guard ok (do Plane.bestFit (← setDimension2D 3 [[1, 0, 1], [1, 1, 1], [(-1), 0, (-1)], [(-1), 1, (-1)]]) none false) fun r => yes (Plane.isClose ⟨1e-9, 1e-9⟩ r.1 (.plane (P [0, 0.5, 0] [1, 0, (-1)]))) && tightL r.1.point [0, 0.5, 0]
#guard ok (do Plane.bestFit (← setDimension2D 3 [[1, 0, 1], [1, 1, 1], [(-1), 0, (-1)], [(-1), 1, (-1)], [0, 0, 0]]) none false) fun r => yes (Plane.isClose ⟨1e-9, 1e-9⟩ r.1 (.plane (P [0, 0.4, 0] [1, 0, (-1)]))) && tightL r.1.point [0, 0.4, 0]
#guard ok (do Plane.bestFit (← setDimension2D 3 [[0, 0, 0], [1, 0, 0], [0, 1, 0], [0, 0, 1]]) none false) fun r => yes (Plane.isClose ⟨1e-9, 1e-9⟩ r.1 (.plane (P [0.25, 0.25, 0.25] [1, 1, 1]))) && tightL r.1.point [0.25, 0.25, 0.25]
#guard ok (do Plane.bestFit (← setDimension2D 3 [[0, 0, 0], [1, 0, 0], [2, 0, 0], [0, 1, 0], [1, 1, 0], [2, 1, 0], [0, 2, 0], [1, 2, 0], [2, 2, 0], [0, 0, 1], [1, 0, 1], [2, 0, 1], [0, 1, 1], [1, 1, 1], [2, 1, 1], [0, 2, 1], [1, 2, 1], [2, 2, 1]]) none false) fun r => yes (Plane.isClose ⟨1e-9, 1e-9⟩ r.1 (.plane (P [1, 1, 0.5] [0, 0, 1]))) && tightL r.1.point [1, 1, 0.5]

-- test_plane.py: test_best_fit_with_error
#guard ok (do Plane.bestFit (← setDimension2D 3 [[0, 0], [1, 1], [0, 2]]) none false) fun r => yes (Plane.isClose ⟨1e-9, 1e-9⟩ r.1 (.plane (P [0.3333333333333333, 1, 0] [0, 0, 1]))) && tightL r.1.point [0.3333333333333333, 1, 0] && tight r.2 0
#guard ok (do Plane.bestFit (← setDimension2D 3 [[0, 0, 0], [1, 0, 0], [0, 1, 0], [0, 0, 1]]) none false) fun r => yes (Plane.isClose ⟨1e-9, 1e-9⟩ r.1 (.plane (P [0.25, 0.25, 0.25] [1, 1, 1]))) && tightL r.1.point [0.25, 0.25, 0.25] && tight r.2 0.25
#guard ok (do Plane.bestFit (← setDimension2D 3 [[0, 0, 0], [2, 0, 0], [0, 2, 0], [0, 0, 2]]) none false) fun r => yes (Plane.isClose ⟨1e-9, 1e-9⟩ r.1 (.plane (P [0.5, 0.5, 0.5] [1, 1, 1]))) && tightL r.1.point [0.5, 0.5, 0.5] && tight r.2 1

-- test_plane.py: test_best_fit_failure
#guard raises (Plane.bestFit ([[0, 0], [1, 0]] : List (List F)) none false) "The points must be 3D."
#guard raises (Plane.bestFit ([[0, 0], [2, 5]] : List (List F)) none false) "The points must be 3D."
#guard raises (Plane.bestFit ([[0, 0, 0], [1, 1, 1], [2, 2, 2]] : List (List F)) none false) "The points must not be collinear."
#guard raises (Plane.bestFit ([[0, 0, 0], [1, 1, 1], [(-10), (-10), (-10)]] : List (List F)) none false) "The points must not be collinear."

-- test_plane.py: test_to_points
#guard tmat (Plane.toPoints (P [0, 0, 0] [0, 0, 1]) [-1, 1] [-1, 1]) [[(-1), (-1), 0], [1, (-1), 0], [(-1), 1, 0], [1, 1, 0]]
#guard tmat (Plane.toPoints (P [1, 0, 0] [0, 0, 1]) [-1, 1] [-1, 1]) [[0, (-1), 0], [2, (-1), 0], [0, 1, 0], [2, 1, 0]]
#guard tmat (Plane.toPoints (P [0, 0, 0] [0, 0, (-1)]) [-1, 1] [-1, 1]) [[(-1), (-1), 0], [1, (-1), 0], [(-1), 1, 0], [1, 1, 0]]
#guard tmat (Plane.toPoints (P [0, 0, 0] [0, 0, 5]) [-1, 1] [-1, 1]) [[(-1), (-1), 0], [1, (-1), 0], [(-1), 1, 0], [1, 1, 0]]
#guard tmat (Plane.toPoints (P [0, 0, 0] [0, 1, 0]) [-1, 1] [-1, 1]) [[(-1), 0, (-1)], [1, 0, (-1)], [(-1), 0, 1], [1, 0, 1]]
#guard tmat (Plane.toPoints (P [0, 0, 0] [1, 0, 0]) [-1, 1] [-1, 1]) [[0, (-1), (-1)], [0, 1, (-1)], [0, (-1), 1], [0, 1, 1]]
#guard tmat (Plane.toPoints (P [0, 0, 0] [1, 1, 0]) [-1, 1] [-1, 1]) [[(-1), 1, (-1)], [1, (-1), (-1)], [(-1), 1, 1], [1, (-1), 1]]

-- test_line_plane.py: test_zero_vector_failure
#guard raises (Line.new [0, 0] ([0, 0] : List F)) "The vector must not be the zero vector."
#guard raises (Plane.new [0, 0] ([0, 0] : List F)) "The vector must not be the zero vector."
#guard raises (Line.new [1, 1] ([0, 0] : List F)) "The vector must not be the zero vector."
#guard raises (Plane.new [1, 1] ([0, 0] : List F)) "The vector must not be the zero vector."
#guard raises (Line.new [1, 1, 1] ([0, 0, 0] : List F)) "The vector must not be the zero vector."
#guard raises (Plane.new [1, 1, 1] ([0, 0, 0] : List F)) "The vector must not be the zero vector."
#guard raises (Line.new [4, 5, 2, 3] ([0, 0, 0, 0] : List F)) "The vector must not be the zero vector."
#guard raises (Plane.new [4, 5, 2, 3] ([0, 0, 0, 0] : List F)) "The vector must not be the zero vector."

-- test_line_plane.py: test_dimension_failure
#guard raises (Line.new [0, 0, 1] ([1, 1] : List F)) "The point and vector must have the same dimension."
#guard raises (Plane.new [0, 0, 1] ([1, 1] : List F)) "The point and vector must have the same dimension."
#guard raises (Line.new [0, 0] ([1] : List F)) "The point and vector must have the same dimension."
#guard raises (Plane.new [0, 0] ([1] : List F)) "The point and vector must have the same dimension."
#guard raises (Line.new [1] ([0, 1] : List F)) "The point and vector must have the same dimension."
#guard raises (Plane.new [1] ([0, 1] : List F)) "The point and vector must have the same dimension."

-- test_line_plane.py: test_is_close
#guard yes (Line.isClose dflt (L [0, 0] [1, 0]) (.line (L [0, 0] [1, 0])))
#guard yes (Line.isClose dflt (L [0, 0] [1, 0]) (.line (L [1, 0] [1, 0])))
#guard yes (Line.isClose dflt (L [0, 0] [1, 0]) (.line (L [(-5), 0] [1, 0])))
#guard yes (Line.isClose dflt (L [0, 0] [1, 0]) (.line (L [(-5), 0] [7, 0])))
#guard yes (Line.isClose dflt (L [0, 0] [1, 0]) (.line (L [(-5), 0] [(-20), 0])))
#guard no (Line.isClose dflt (L [0, 0] [1, 0]) (.line (L [(-5), 1] [1, 0])))
#guard yes (Plane.isClose dflt (P [0, 0, 0] [0, 0, 1]) (.plane (P [0, 0, 0] [0, 0, 1])))
#guard yes (Plane.isClose dflt (P [0, 0, 0] [0, 0, 1]) (.plane (P [0, 0, 0] [0, 0, 2])))
#guard yes (Plane.isClose dflt (P [0, 0, 0] [0, 0, 1]) (.plane (P [0, 0, 0] [0, 0, (-10)])))
#guard no (Plane.isClose dflt (P [0, 0, 0] [0, 0, 1]) (.plane (P [0, 0, 0] [1, 0, (-10)])))

-- test_line_plane.py: test_is_close_failure
#guard raisesType (Line.isClose dflt (L [0, 0] [1, 0]) (.plane (P [0, 0] [1, 0]))) "The input must have the same type as the object."
#guard raisesType (Plane.isClose dflt (P [0, 0] [1, 0]) (.line (L [0, 0] [1, 0]))) "The input must have the same type as the object."

-- test_line_segment.py: test_initialize
#guard ok (LineSegment.new [0, 0] [1, 0]) fun s => tightL s.pointA [0, 0] && tightL s.pointB [1, 0]
#guard ok (LineSegment.new [(-1), (-1)] [2, (-1)]) fun s => tightL s.pointA [(-1), (-1)] && tightL s.pointB [2, (-1)]
#guard ok (LineSegment.new [1, 2, 3] [4, 5, 6]) fun s => tightL s.pointA [1, 2, 3] && tightL s.pointB [4, 5, 6]

-- test_line_segment.py: test_failure
#guard raises (LineSegment.new [0, 0] ([0, 0] : List F)) "The endpoints must not be equal."
#guard raises (LineSegment.new [(-1), (-1)] ([(-1), (-1)] : List F)) "The endpoints must not be equal."
#guard raises (LineSegment.new [2, 2, 2] ([2, 2, 2] : List F)) "The endpoints must not be equal."

-- test_line_segment.py: test_contains_point
#guard yes (LineSegment.containsPoint dflt (Sg [0, 0] [1, 0]) [0, 0])
#guard yes (LineSegment.containsPoint dflt (Sg [0, 0] [1, 0]) [1, 0])
#guard yes (LineSegment.containsPoint dflt (Sg [0, 0] [1, 0]) [0.5, 0])
#guard no (LineSegment.containsPoint dflt (Sg [0, 0] [1, 0]) [2, 0])
#guard no (LineSegment.containsPoint dflt (Sg [0, 0] [1, 0]) [(-2), 0])
#guard no (LineSegment.containsPoint dflt (Sg [0, 0] [1, 0]) [0, 1])
#guard no (LineSegment.containsPoint dflt (Sg [0, 0] [1, 0]) [1, 1])
#guard no (LineSegment.containsPoint dflt (Sg [0, 0] [1, 0]) [0.5, 1])
#guard yes (LineSegment.containsPoint dflt (Sg [2, 4] [3, 3]) [2, 4])
#guard yes (LineSegment.containsPoint dflt (Sg [2, 4] [3, 3]) [3, 3])
#guard yes (LineSegment.containsPoint dflt (Sg [2, 4] [3, 3]) [2.5, 3.5])
#guard no (LineSegment.containsPoint dflt (Sg [2, 4] [3, 3]) [3, 4])

-- test_line_segment.py: test_contains_point_with_tolerance
#guard yes (LineSegment.containsPoint ⟨1e-9, 1e-1⟩ (Sg [0, 0] [1, 0]) [0.001, 0])
#guard yes (LineSegment.containsPoint ⟨1e-9, 1e-1⟩ (Sg [0, 0] [1, 0]) [(-0.001), 0])
#guard yes (LineSegment.containsPoint ⟨1e-9, 1e-1⟩ (Sg [0, 0] [1, 0]) [1, 0.001])
#guard yes (LineSegment.containsPoint ⟨1e-9, 1e-1⟩ (Sg [0, 0] [1, 0]) [1, (-0.001)])
#guard yes (LineSegment.containsPoint ⟨1e-9, 1e-1⟩ (Sg [0, 0] [2, 0]) [1, 0.001])
#guard yes (LineSegment.containsPoint ⟨1e-9, 1e-1⟩ (Sg [0, 0] [2, 0]) [1, (-0.001)])

-- test_line_segment.py: test_intersect_line_segment
#guard tvec (LineSegment.intersectLineSegment (Sg [0, 0] [1, 0]) (Sg [0, 0] [0, 1]) true dflt) [0, 0]
#guard tvec (LineSegment.intersectLineSegment (Sg [(-1), 0] [1, 0]) (Sg [0, (-1)] [0, 1]) true dflt) [0, 0]
#guard tvec (LineSegment.intersectLineSegment (Sg [0, 0] [2, 0]) (Sg [1, 0] [1, 1]) true dflt) [1, 0]

-- test_line_segment.py: test_intersect_line_segment_failure
#guard raises (LineSegment.intersectLineSegment (Sg [0, 0] [2, 0]) (Sg [1, 1] [1, 2]) true dflt) "The line segments must intersect."
#guard raises (LineSegment.intersectLineSegment (Sg [1, 1] [1, 2]) (Sg [0, 0] [2, 0]) true dflt) "The line segments must intersect."
#guard raises (LineSegment.intersectLineSegment (Sg [0, 0] [2, 0]) (Sg [1, (-1)] [1, (-2)]) true dflt) "The line segments must intersect."
#guard raises (LineSegment.intersectLineSegment (Sg [0, 0] [1, 0]) (Sg [0, 1] [1, 1]) true dflt) "The lines must not be parallel."
#guard raises (LineSegment.intersectLineSegment (Sg [0, 0, 0] [1, 0, 0]) (Sg [0, 0] [1, 0]) true dflt) "The lines must have the same dimension."
#guard raises (LineSegment.intersectLineSegment (Sg [0, 0, 0] [1, 1, 1]) (Sg [0, 1, 0] [(-1), 1, 0]) true dflt) "The lines must be coplanar."

-- test_circle.py: test_failure
#guard raises (Circle.new [0, 0, 0] (1 : F)) "The point must be 2D."
#guard raises (Circle.new [1, 2, 3] (1 : F)) "The point must be 2D."
#guard raises (Circle.new [0, 0] (0 : F)) "The radius must be positive."
#guard raises (Circle.new [0, 0] ((-1) : F)) "The radius must be positive."
#guard raises (Circle.new [0, 0] ((-5) : F)) "The radius must be positive."

-- test_circle.py: test_from_points
#guard ok (Circle.fromPoints none [0, (-1)] [1, 0] [0, 1]) fun c => tightL c.point [0, 0] && tight c.radius 1
#guard ok (Circle.fromPoints none [0, (-2)] [2, 0] [0, 2]) fun c => tightL c.point [0, 0] && tight c.radius 2
#guard ok (Circle.fromPoints none [1, (-1)] [2, 0] [1, 1]) fun c => tightL c.point [1, 0] && tight c.radius 1

-- test_circle.py: test_from_points_failure
#guard raises (Circle.fromPoints none [1, 0, 0] [1, 0] ([1, 0] : List F)) "The points must be 2D."
#guard raises (Circle.fromPoints none [1, 0] [1, 0, 0] ([1, 0] : List F)) "The points must be 2D."
#guard raises (Circle.fromPoints none [1, 0] [0, 0] ([1, 0, 1] : List F)) "The points must be 2D."
#guard raises (Circle.fromPoints none [0, 0] [0, 0] ([0, 0] : List F)) "The points must not be collinear."
#guard raises (Circle.fromPoints none [0, 0] [1, 1] ([2, 2] : List F)) "The points must not be collinear."

-- test_circle.py: test_circumference_area
#guard tight (Circle.circumference (C [0, 0] 1)) 6.283185307179586 && tight (Circle.area (C [0, 0] 1)) 3.141592653589793
#guard tight (Circle.circumference (C [0, 0] 2)) 12.566370614359172 && tight (Circle.area (C [0, 0] 2)) 12.566370614359172
#guard tight (Circle.circumference (C [0, 0] 3)) 18.84955592153876 && tight (Circle.area (C [0, 0] 3)) 28.274333882308138
#guard tight (Circle.circumference (C [0, 0] 4.5)) 28.274333882308138 && tight (Circle.area (C [0, 0] 4.5)) 63.61725123519331
#guard tight (Circle.circumference (C [0, 0] 10)) 62.83185307179586 && tight (Circle.area (C [0, 0] 10)) 314.1592653589793

-- test_circle.py: test_distance_point
#guard tval (Circle.distancePoint (C [0, 0] 1) [0, 0]) 1
#guard tval (Circle.distancePoint (C [0, 0] 1) [0.5, 0]) 0.5
#guard tval (Circle.distancePoint (C [0, 0] 1) [1, 0]) 0
#guard tval (Circle.distancePoint (C [0, 0] 1) [0, 1]) 0
#guard tval (Circle.distancePoint (C [0, 0] 1) [(-1), 0]) 0
#guard tval (Circle.distancePoint (C [0, 0] 1) [0, (-1)]) 0
#guard tval (Circle.distancePoint (C [0, 0] 1) [2, 0]) 1
#guard tval (Circle.distancePoint (C [0, 0] 1) [1, 1]) 0.41421356237309515
#guard tval (Circle.distancePoint (C [1, 1] 1) [0, 0]) 0.41421356237309515
#guard tval (Circle.distancePoint (C [0, 0] 2) [0, 5]) 3

-- test_circle.py: test_contains_point
#guard yes (Circle.containsPoint dflt (C [0, 0] 1) [1, 0])
#guard yes (Circle.containsPoint dflt (C [0, 0] 1) [0, 1])
#guard yes (Circle.containsPoint dflt (C [0, 0] 1) [(-1), 0])
#guard yes (Circle.containsPoint dflt (C [0, 0] 1) [0, (-1)])
#guard no (Circle.containsPoint dflt (C [0, 0] 1) [0, 0])
#guard no (Circle.containsPoint dflt (C [0, 0] 1) [1, 1])
#guard no (Circle.containsPoint dflt (C [0, 0] 2) [1, 0])
#guard no (Circle.containsPoint dflt (C [1, 0] 1) [1, 0])
#guard yes (Circle.containsPoint dflt (C [0, 0] 1.4142135623730951) [1, 1])

-- test_circle.py: test_project_point
#guard tvec (Circle.projectPoint (C [0, 0] 1) [1, 0]) [1, 0]
#guard tvec (Circle.projectPoint (C [0, 0] 1) [2, 0]) [1, 0]
#guard tvec (Circle.projectPoint (C [0, 0] 1) [(-2), 0]) [(-1), 0]
#guard tvec (Circle.projectPoint (C [0, 0] 1) [0, 2]) [0, 1]
#guard tvec (Circle.projectPoint (C [0, 0] 1) [0, (-2)]) [0, (-1)]
#guard tvec (Circle.projectPoint (C [0, 0] 5) [0, (-2)]) [0, (-5)]
#guard tvec (Circle.projectPoint (C [0, 1] 5) [0, (-2)]) [0, (-4)]
#guard tvec (Circle.projectPoint (C [0, 0] 1) [1, 1]) [0.7071067811865476, 0.7071067811865476]
#guard tvec (Circle.projectPoint (C [0, 0] 2) [1, 1]) [1.4142135623730951, 1.4142135623730951]

-- test_circle.py: test_project_point_failure
#guard raises (Circle.projectPoint (C [0, 0] 1) [0, 0]) "The point must not be the center of the circle or sphere."
#guard raises (Circle.projectPoint (C [0, 0] 5) [0, 0]) "The point must not be the center of the circle or sphere."
#guard raises (Circle.projectPoint (C [7, (-1)] 5) [7, (-1)]) "The point must not be the center of the circle or sphere."

-- test_circle.py: test_best_fit
#guard ok (Circle.bestFit [[1, 1], [2, 2], [3, 1]]) fun c => tightL c.point [2, 1] && tight c.radius 1
#guard ok (Circle.bestFit [[2, 0], [(-2), 0], [0, 2]]) fun c => tightL c.point [0, 0] && tight c.radius 2
#guard ok (Circle.bestFit [[1, 0], [0, 1], [1, 2]]) fun c => tightL c.point [1, 1] && tight c.radius 1

-- test_circle.py: test_best_fit_failure
#guard raises (Circle.bestFit ([[1, 0, 0], [(-1), 0, 0], [0, 1, 0]] : List (List F))) "The points must be 2D."
#guard raises (Circle.bestFit ([[2, 0], [(-2), 0]] : List (List F))) "There must be at least 3 points."
#guard raises (Circle.bestFit ([[0, 0], [1, 1], [2, 2]] : List (List F))) "The points must not be collinear."

-- test_circle.py: test_intersect_circle
#guard tpair (Circle.intersectCircle (C [0, 0] 1) (C [2, 0] 1)) [1, 0] [1, 0]
#guard tpair (Circle.intersectCircle (C [1, 0] 1) (C [3, 0] 1)) [2, 0] [2, 0]
#guard tpair (Circle.intersectCircle (C [0, 0] 2) (C [1, 0] 1)) [2, 0] [2, 0]
#guard tpair (Circle.intersectCircle (C [0, 0] 2) (C [3, 0] 1)) [2, 0] [2, 0]
#guard tpair (Circle.intersectCircle (C [0, 0] 1) (C [0, 2] 1)) [0, 1] [0, 1]
#guard tpair (Circle.intersectCircle (C [0, 0] 2) (C [2, 0] 1)) [1.75, 0.9682458365518543] [1.75, (-0.9682458365518543)]
#guard tpair (Circle.intersectCircle (C [0, 0] 1) (C [1, 0] 1)) [0.5, 0.8660254037844386] [0.5, (-0.8660254037844386)]

-- test_circle.py: test_intersect_circle_failure
#guard raises (Circle.intersectCircle (C [0, 0] 1) (C [0, 0] 1)) "The centres of the circles are coincident."
#guard raises (Circle.intersectCircle (C [0, 0] 1) (C [0, 0] 2)) "The centres of the circles are coincident."
#guard raises (Circle.intersectCircle (C [4, (-3)] 1) (C [4, (-3)] 1)) "The centres of the circles are coincident."
#guard raises (Circle.intersectCircle (C [0, 0] 3) (C [1, 0] 1)) "The circles do not intersect. One circle is contained within the other."
#guard raises (Circle.intersectCircle (C [0, 0] 1) (C [0, 3] 1)) "The circles do not intersect. These circles are separate."
#guard raises (Circle.intersectCircle (C [1, 1] 1) (C [5, 0] 1)) "The circles do not intersect. These circles are separate."

-- test_circle.py: test_intersect_line
#guard tpair (Circle.intersectLine (C [0, 0] 1) (L [0, 0] [1, 0])) [(-1), 0] [1, 0]
#guard tpair (Circle.intersectLine (C [0, 0] 1) (L [0, 0] [0, 1])) [0, (-1)] [0, 1]
#guard tpair (Circle.intersectLine (C [0, 0] 1) (L [0, 1] [1, 0])) [0, 1] [0, 1]
#guard tpair (Circle.intersectLine (C [0, 0] 1) (L [0, 0.5] [1, 0])) [(-0.8660254037844386), 0.5] [0.8660254037844386, 0.5]
#guard tpair (Circle.intersectLine (C [1, 0] 1) (L [0, 0] [1, 0])) [0, 0] [2, 0]
#guard tpair (Circle.intersectLine (C [1.5, 0] 1) (L [0, 0] [1, 0])) [0.5, 0] [2.5, 0]

-- test_circle.py: test_intersect_line_failure
#guard raises (Circle.intersectLine (C [0, 0] 1) (L [0, 2] [1, 0])) "The line does not intersect the circle."
#guard raises (Circle.intersectLine (C [0, 0] 1) (L [0, (-2)] [1, 0])) "The line does not intersect the circle."
#guard raises (Circle.intersectLine (C [0, 0] 1) (L [2, 0] [0, 1])) "The line does not intersect the circle."
#guard raises (Circle.intersectLine (C [0, 0] 1) (L [3, 0] [1, 1])) "The line does not intersect the circle."
#guard raises (Circle.intersectLine (C [0, 0] 0.5) (L [0, 1] [1, 1])) "The line does not intersect the circle."
#guard raises (Circle.intersectLine (C [0, 1] 0.5) (L [0, 0] [1, 0])) "The line does not intersect the circle."
#guard raises (Circle.intersectLine (C [5, 2] 1) (L [2, (-1)] [1, 0])) "The line does not intersect the circle."

-- test_sphere.py: test_failure
#guard raises (Sphere.new [0] (1 : F)) "The point must be 3D."
#guard raises (Sphere.new [0, 0] (1 : F)) "The point must be 3D."
#guard raises (Sphere.new [0, 0, 0, 0] (1 : F)) "The point must be 3D."
#guard raises (Sphere.new [1, 2, 3, 4] (1 : F)) "The point must be 3D."
#guard raises (Sphere.new [0, 0, 0] (0 : F)) "The radius must be positive."
#guard raises (Sphere.new [0, 0, 0] ((-1) : F)) "The radius must be positive."
#guard raises (Sphere.new [0, 0, 0] ((-5) : F)) "The radius must be positive."

-- test_sphere.py: test_surface_area_volume
#guard tight (Sphere.surfaceArea (S [0, 0, 0] 1)) 12.566370614359172 && tight (Sphere.volume (S [0, 0, 0] 1)) 4.1887902047863905
#guard tight (Sphere.surfaceArea (S [0, 0, 0] 2)) 50.26548245743669 && tight (Sphere.volume (S [0, 0, 0] 2)) 33.510321638291124
#guard tight (Sphere.surfaceArea (S [0, 0, 0] 3)) 113.09733552923255 && tight (Sphere.volume (S [0, 0, 0] 3)) 113.09733552923255
#guard tight (Sphere.surfaceArea (S [0, 0, 0] 4.5)) 254.46900494077323 && tight (Sphere.volume (S [0, 0, 0] 4.5)) 381.7035074111599
#guard tight (Sphere.surfaceArea (S [0, 0, 0] 10)) 1256.6370614359173 && tight (Sphere.volume (S [0, 0, 0] 10)) 4188.790204786391

-- test_sphere.py: test_distance_point
#guard tval (Sphere.distancePoint (S [0, 0, 0] 1) [0, 0, 0]) 1
#guard tval (Sphere.distancePoint (S [0, 0, 0] 1) [1, 0, 0]) 0
#guard tval (Sphere.distancePoint (S [0, 0, 0] 1) [0, (-1), 0]) 0
#guard tval (Sphere.distancePoint (S [0, 0, 0] 2) [0, 0, 0]) 2
#guard tval (Sphere.distancePoint (S [0, 0, 0] 1) [1, 1, 1]) 0.7320508075688772
#guard tval (Sphere.distancePoint (S [0, 0, 0] 2) [1, 1, 1]) 0.2679491924311228
#guard tval (Sphere.distancePoint (S [1, 0, 0] 2) [0, 0, 0]) 1

-- test_sphere.py: test_contains_point
#guard yes (Sphere.containsPoint dflt (S [0, 0, 0] 1) [1, 0, 0])
#guard yes (Sphere.containsPoint dflt (S [0, 0, 0] 1) [0, 1, 0])
#guard yes (Sphere.containsPoint dflt (S [0, 0, 0] 1) [0, 0, 1])
#guard yes (Sphere.containsPoint dflt (S [0, 0, 0] 1) [(-1), 0, 0])
#guard yes (Sphere.containsPoint dflt (S [0, 0, 0] 1) [0, (-1), 0])
#guard yes (Sphere.containsPoint dflt (S [0, 0, 0] 1) [0, 0, (-1)])
#guard no (Sphere.containsPoint dflt (S [0, 0, 0] 1) [1, 1, 0])
#guard no (Sphere.containsPoint dflt (S [1, 0, 0] 1) [1, 0, 0])
#guard yes (Sphere.containsPoint dflt (S [1, 0, 0] 1) [2, 0, 0])
#guard yes (Sphere.containsPoint dflt (S [0, 0, 0] 2) [0, 2, 0])
#guard yes (Sphere.containsPoint dflt (S [0, 0, 0] 1.7320508075688772) [1, 1, 1])

-- test_sphere.py: test_project_point
#guard tvec (Sphere.projectPoint (S [0, 0, 0] 1) [1, 0, 0]) [1, 0, 0]
#guard tvec (Sphere.projectPoint (S [0, 0, 0] 2) [1, 0, 0]) [2, 0, 0]
#guard tvec (Sphere.projectPoint (S [0, 0, 0] 0.1) [1, 0, 0]) [0.1, 0, 0]
#guard tvec (Sphere.projectPoint (S [(-1), 0, 0] 1) [1, 0, 0]) [0, 0, 0]
#guard tvec (Sphere.projectPoint (S [0, 0, 0] 1) [1, 1, 1]) [0.5773502691896257, 0.5773502691896257, 0.5773502691896257]
#guard tvec (Sphere.projectPoint (S [0, 0, 0] 3) [1, 1, 1]) [1.7320508075688772, 1.7320508075688772, 1.7320508075688772]

-- test_sphere.py: test_project_point_failure
#guard raises (Sphere.projectPoint (S [0, 0, 0] 1) [0, 0, 0]) "The point must not be the center of the circle or sphere."
#guard raises (Sphere.projectPoint (S [0, 0, 0] 5) [0, 0, 0]) "The point must not be the center of the circle or sphere."
#guard raises (Sphere.projectPoint (S [5, 2, (-6)] 5) [5, 2, (-6)]) "The point must not be the center of the circle or sphere."

-- test_sphere.py: test_best_fit
#guard ok (Sphere.bestFit [[1, 0, 0], [(-1), 0, 0], [0, 1, 0], [0, 0, 1]]) fun c => tightL c.point [0, 0, 0] && tight c.radius 1
#guard ok (Sphere.bestFit [[2, 0, 0], [(-2), 0, 0], [0, 2, 0], [0, 0, 2]]) fun c => tightL c.point [0, 0, 0] && tight c.radius 2
#guard ok (Sphere.bestFit [[1, 0, 1], [0, 1, 1], [1, 2, 1], [1, 1, 2]]) fun c => tightL c.point [1, 1, 1] && tight c.radius 1

-- test_sphere.py: test_best_fit_failure
#guard raises (Sphere.bestFit ([[1, 0], [(-1), 0], [0, 1], [0, 0]] : List (List F))) "The points must be 3D."
#guard raises (Sphere.bestFit ([[2, 0, 0], [(-2), 0, 0], [0, 2, 0]] : List (List F))) "There must be at least 4 points."
#guard raises (Sphere.bestFit ([[1, 0, 0], [(-1), 0, 0], [0, 1, 0], [0, (-1), 0]] : List (List F))) "The points must not be in a plane."

-- test_sphere.py: test_intersect_line
#guard tpair (Sphere.intersectLine (S [0, 0, 0] 1) (L [0, 0, 0] [1, 0, 0])) [(-1), 0, 0] [1, 0, 0]
#guard tpair (Sphere.intersectLine (S [0, 0, 0] 1) (L [0, 0, 0] [1, 1, 0])) [(-0.7071067811865476), (-0.7071067811865476), (-0.0)] [0.7071067811865476, 0.7071067811865476, 0.0]
#guard tpair (Sphere.intersectLine (S [0, 0, 0] 1) (L [0, 0, 0] [1, 1, 1])) [(-0.5773502691896257), (-0.5773502691896257), (-0.5773502691896257)] [0.5773502691896257, 0.5773502691896257, 0.5773502691896257]
#guard tpair (Sphere.intersectLine (S [1, 0, 0] 1) (L [0, 0, 0] [1, 0, 0])) [0, 0, 0] [2, 0, 0]
#guard tpair (Sphere.intersectLine (S [0, 0, 0] 1) (L [1, 0, 0] [0, 0, 1])) [1, 0, 0] [1, 0, 0]

-- test_sphere.py: test_intersect_line_failure
#guard raises (Sphere.intersectLine (S [0, 0, 0] 1) (L [0, 0, 2] [1, 0, 0])) "The line does not intersect the sphere."
#guard raises (Sphere.intersectLine (S [0, 0, 0] 1) (L [0, 0, (-2)] [1, 0, 0])) "The line does not intersect the sphere."
#guard raises (Sphere.intersectLine (S [0, 2, 0] 1) (L [0, 0, 0] [1, 0, 0])) "The line does not intersect the sphere."
#guard raises (Sphere.intersectLine (S [0, (-2), 0] 1) (L [0, 0, 0] [1, 0, 0])) "The line does not intersect the sphere."
#guard raises (Sphere.intersectLine (S [5, 0, 0] 1) (L [0, 0, 0] [1, 1, 1])) "The line does not intersect the sphere."

-- test_sphere.py: test_to_points
#guard tmat (do Pts.unique ((← Sphere.toPoints (S [0, 0, 0] 1) 1).map (roundValues 3))) [[0, 0, 1]]
#guard tmat (do Pts.unique ((← Sphere.toPoints (S [0, 0, 0] 1) 2).map (roundValues 3))) [[0, 0, (-1)], [0, 0, 1]]
#guard tmat (do Pts.unique ((← Sphere.toPoints (S [0, 0, 0] 1) 3).map (roundValues 3))) [[0, (-1), 0], [0, 0, (-1)], [0, 0, 1], [0, 1, 0]]
#guard tmat (do Pts.unique ((← Sphere.toPoints (S [0, 0, 0] 2) 3).map (roundValues 3))) [[0, (-2), 0], [0, 0, (-2)], [0, 0, 2], [0, 2, 0]]
#guard tmat (do Pts.unique ((← Sphere.toPoints (S [1, 0, 0] 1) 3).map (roundValues 3))) [[1, (-1), 0], [1, 0, (-1)], [1, 0, 1], [1, 1, 0]]
#guard tmat (do Pts.unique ((← Sphere.toPoints (S [1, 1, 1] 1) 3).map (roundValues 3))) [[1, 0, 1], [1, 1, 0], [1, 1, 2], [1, 2, 1]]

-- test_triangle.py: test_triangle
#guard tval (Triangle.area (T [0, 0] [1, 0] [0, 1])) 0.5
#guard tval (Triangle.perimeter (T [0, 0] [1, 0] [0, 1])) 3.414213562373095
#guard tvec (Triangle.multiple (Triangle.length (T [0, 0] [1, 0] [0, 1])) ["a", "b", "c"]) [1.4142135623730951, 1, 1]
#guard tmat (Triangle.multiple (Triangle.point (T [0, 0] [1, 0] [0, 1])) ["A", "B", "C"]) [[0, 0], [1, 0], [0, 1]]
#guard tvec (Triangle.multiple (Triangle.angle (T [0, 0] [1, 0] [0, 1])) ["A", "B", "C"]) [1.5707963267948966, 0.7853981633974483, 0.7853981633974483]
#guard tvec (Triangle.normal (T [0, 0] [1, 0] [0, 1])) [0, 0, 1]
#guard tvec (Triangle.centroid (T [0, 0] [1, 0] [0, 1])) [0.3333333333333333, 0.3333333333333333]
#guard tvec (Triangle.orthocenter (T [0, 0] [1, 0] [0, 1]) true dflt) [0, 0]
#guard ok (Triangle.classify dflt (T [0, 0] [1, 0] [0, 1])) (· == "isosceles")
#guard yes (Triangle.isRight dflt (T [0, 0] [1, 0] [0, 1]))
#guard ok (Triangle.altitude (T [0, 0] [1, 0] [0, 1]) "A") fun l => yes (Line.isClose ⟨1e-9, 1e-3⟩ l (.line (L [0, 0] [0.5, 0.5])))
#guard ok (Triangle.altitude (T [0, 0] [1, 0] [0, 1]) "B") fun l => yes (Line.isClose ⟨1e-9, 1e-3⟩ l (.line (L [1, 0] [(-1), 0])))
#guard ok (Triangle.altitude (T [0, 0] [1, 0] [0, 1]) "C") fun l => yes (Line.isClose ⟨1e-9, 1e-3⟩ l (.line (L [0, 1] [0, (-1)])))
#guard tval (Triangle.area (T [0, 0] [1, 1] [2, 0])) 1
#guard tval (Triangle.perimeter (T [0, 0] [1, 1] [2, 0])) 4.82842712474619
#guard tvec (Triangle.multiple (Triangle.length (T [0, 0] [1, 1] [2, 0])) ["a", "b", "c"]) [1.4142135623730951, 2, 1.4142135623730951]
#guard tmat (Triangle.multiple (Triangle.point (T [0, 0] [1, 1] [2, 0])) ["A", "B", "C"]) [[0, 0], [1, 1], [2, 0]]
#guard tvec (Triangle.multiple (Triangle.angle (T [0, 0] [1, 1] [2, 0])) ["A", "B", "C"]) [0.7853981633974483, 1.5707963267948966, 0.7853981633974483]
#guard tvec (Triangle.normal (T [0, 0] [1, 1] [2, 0])) [0, 0, (-2)]
#guard tvec (Triangle.centroid (T [0, 0] [1, 1] [2, 0])) [1, 0.3333333333333333]
#guard tvec (Triangle.orthocenter (T [0, 0] [1, 1] [2, 0]) true dflt) [1, 1]
#guard ok (Triangle.classify dflt (T [0, 0] [1, 1] [2, 0])) (· == "isosceles")
#guard yes (Triangle.isRight dflt (T [0, 0] [1, 1] [2, 0]))
#guard ok (Triangle.altitude (T [0, 0] [1, 1] [2, 0]) "A") fun l => yes (Line.isClose ⟨1e-9, 1e-3⟩ l (.line (L [0, 0] [1, 1])))
#guard ok (Triangle.altitude (T [0, 0] [1, 1] [2, 0]) "B") fun l => yes (Line.isClose ⟨1e-9, 1e-3⟩ l (.line (L [1, 1] [0, (-1)])))
#guard ok (Triangle.altitude (T [0, 0] [1, 1] [2, 0]) "C") fun l => yes (Line.isClose ⟨1e-9, 1e-3⟩ l (.line (L [2, 0] [(-1), 1])))
#guard tval (Triangle.area (T [0, 0] [1, 0] [0.5, 0.8660254037844386])) 0.4330127018922193
#guard tval (Triangle.perimeter (T [0, 0] [1, 0] [0.5, 0.8660254037844386])) 3
#guard tvec (Triangle.multiple (Triangle.length (T [0, 0] [1, 0] [0.5, 0.8660254037844386])) ["a", "b", "c"]) [1, 1, 1]
#guard tmat (Triangle.multiple (Triangle.point (T [0, 0] [1, 0] [0.5, 0.8660254037844386])) ["A", "B", "C"]) [[0, 0], [1, 0], [0.5, 0.8660254037844386]]
#guard tvec (Triangle.multiple (Triangle.angle (T [0, 0] [1, 0] [0.5, 0.8660254037844386])) ["A", "B", "C"]) [1.0471975511965976, 1.0471975511965976, 1.0471975511965976]
#guard tvec (Triangle.normal (T [0, 0] [1, 0] [0.5, 0.8660254037844386])) [0, 0, 0.8660254037844386]
#guard tvec (Triangle.centroid (T [0, 0] [1, 0] [0.5, 0.8660254037844386])) [0.5, 0.28867513459481287]
#guard tvec (Triangle.orthocenter (T [0, 0] [1, 0] [0.5, 0.8660254037844386]) true dflt) [0.5, 0.28867513459481287]
#guard ok (Triangle.classify dflt (T [0, 0] [1, 0] [0.5, 0.8660254037844386])) (· == "equilateral")
#guard no (Triangle.isRight dflt (T [0, 0] [1, 0] [0.5, 0.8660254037844386]))
#guard ok (Triangle.altitude (T [0, 0] [1, 0] [0.5, 0.8660254037844386]) "A") fun l => yes (Line.isClose ⟨1e-9, 1e-3⟩ l (.line (L [0, 0] [0.75, 0.4330127018922193])))
#guard ok (Triangle.altitude (T [0, 0] [1, 0] [0.5, 0.8660254037844386]) "B") fun l => yes (Line.isClose ⟨1e-9, 1e-3⟩ l (.line (L [1, 0] [(-0.75), 0.4330127018922193])))
#guard ok (Triangle.altitude (T [0, 0] [1, 0] [0.5, 0.8660254037844386]) "C") fun l => yes (Line.isClose ⟨1e-9, 1e-3⟩ l (.line (L [0.5, 0.8660254037844386] [0, (-0.8660254037844386)])))
#guard tval (Triangle.area (T [0, 0] [1, 0] [0, 2])) 1
#guard tval (Triangle.perimeter (T [0, 0] [1, 0] [0, 2])) 5.23606797749979
#guard tvec (Triangle.multiple (Triangle.length (T [0, 0] [1, 0] [0, 2])) ["a", "b", "c"]) [2.23606797749979, 2, 1]
#guard tmat (Triangle.multiple (Triangle.point (T [0, 0] [1, 0] [0, 2])) ["A", "B", "C"]) [[0, 0], [1, 0], [0, 2]]
#guard tvec (Triangle.multiple (Triangle.angle (T [0, 0] [1, 0] [0, 2])) ["A", "B", "C"]) [1.5707963267948966, 1.1071487177940904, 0.4636476090008061]
#guard tvec (Triangle.normal (T [0, 0] [1, 0] [0, 2])) [0, 0, 2]
#guard tvec (Triangle.centroid (T [0, 0] [1, 0] [0, 2])) [0.3333333333333333, 0.6666666666666666]
#guard tvec (Triangle.orthocenter (T [0, 0] [1, 0] [0, 2]) true dflt) [0, 0]
#guard ok (Triangle.classify dflt (T [0, 0] [1, 0] [0, 2])) (· == "scalene")
#guard yes (Triangle.isRight dflt (T [0, 0] [1, 0] [0, 2]))
#guard ok (Triangle.altitude (T [0, 0] [1, 0] [0, 2]) "A") fun l => yes (Line.isClose ⟨1e-9, 1e-3⟩ l (.line (L [0, 0] [0.8, 0.4])))
#guard ok (Triangle.altitude (T [0, 0] [1, 0] [0, 2]) "B") fun l => yes (Line.isClose ⟨1e-9, 1e-3⟩ l (.line (L [1, 0] [(-1), 0])))
#guard ok (Triangle.altitude (T [0, 0] [1, 0] [0, 2]) "C") fun l => yes (Line.isClose ⟨1e-9, 1e-3⟩ l (.line (L [0, 2] [0, (-2)])))
#guard tval (Triangle.area (T [0, 0] [3, 0] [0, 4])) 6
#guard tval (Triangle.perimeter (T [0, 0] [3, 0] [0, 4])) 12
#guard tvec (Triangle.multiple (Triangle.length (T [0, 0] [3, 0] [0, 4])) ["a", "b", "c"]) [5, 4, 3]
#guard tmat (Triangle.multiple (Triangle.point (T [0, 0] [3, 0] [0, 4])) ["A", "B", "C"]) [[0, 0], [3, 0], [0, 4]]
#guard tvec (Triangle.multiple (Triangle.angle (T [0, 0] [3, 0] [0, 4])) ["A", "B", "C"]) [1.5707963267948966, 0.9272952180016122, 0.6435011087932844]
#guard tvec (Triangle.normal (T [0, 0] [3, 0] [0, 4])) [0, 0, 12]
#guard tvec (Triangle.centroid (T [0, 0] [3, 0] [0, 4])) [1, 1.3333333333333333]
#guard tvec (Triangle.orthocenter (T [0, 0] [3, 0] [0, 4]) true dflt) [0, 0]
#guard ok (Triangle.classify dflt (T [0, 0] [3, 0] [0, 4])) (· == "scalene")
#guard yes (Triangle.isRight dflt (T [0, 0] [3, 0] [0, 4]))
#guard ok (Triangle.altitude (T [0, 0] [3, 0] [0, 4]) "A") fun l => yes (Line.isClose ⟨1e-9, 1e-3⟩ l (.line (L [0, 0] [1.92, 1.44])))
#guard ok (Triangle.altitude (T [0, 0] [3, 0] [0, 4]) "B") fun l => yes (Line.isClose ⟨1e-9, 1e-3⟩ l (.line (L [3, 0] [(-3), 0])))
#guard ok (Triangle.altitude (T [0, 0] [3, 0] [0, 4]) "C") fun l => yes (Line.isClose ⟨1e-9, 1e-3⟩ l (.line (L [0, 4] [0, (-4)])))

-- test_triangle.py: test_failure_different_dimensions
#guard raises (Triangle.new [1] [1, 0] ([1, 0] : List F)) "The points must have the same dimension."
#guard raises (Triangle.new [1, 0, 0] [1, 0] ([1, 0] : List F)) "The points must have the same dimension."
#guard raises (Triangle.new [1, 0] [1, 0] ([1, 0, 0] : List F)) "The points must have the same dimension."
#guard raises (Triangle.new [1, 0, 0] [1, 0] ([1, 0, 0] : List F)) "The points must have the same dimension."

-- test_triangle.py: test_failure_collinear_points
#guard raises (Triangle.new [1] [2] ([3] : List F)) "The points must not be collinear."
#guard raises (Triangle.new [1, 0] [1, 0] ([1, 0] : List F)) "The points must not be collinear."
#guard raises (Triangle.new [1, 2, 3] [1, 2, 3] ([1, 2, 3] : List F)) "The points must not be collinear."
#guard raises (Triangle.new [1, 2, 3] [1, 2, 3] ([2, 3, (-10)] : List F)) "The points must not be collinear."
#guard raises (Triangle.new [1, 2, 3] [4, 5, 6] ([7, 8, 9] : List F)) "The points must not be collinear."
#guard raises (Triangle.new [1, 2, 3, 4] [5, 6, 7, 8] ([9, 10, 11, 12] : List F)) "The points must not be collinear."

-- test_triangle.py: test_failure_point
#guard raises (Triangle.point (T [0, 0] [0, 1] [1, 0]) "a") "The vertex must be 'A', 'B', or 'C'."
#guard raises (Triangle.angle (T [0, 0] [0, 1] [1, 0]) "a") "The vertex must be 'A', 'B', or 'C'."
#guard raises (Triangle.altitude (T [0, 0] [0, 1] [1, 0]) "a") "The vertex must be 'A', 'B', or 'C'."
#guard raises (Triangle.point (T [0, 0] [0, 1] [1, 0]) "b") "The vertex must be 'A', 'B', or 'C'."
#guard raises (Triangle.angle (T [0, 0] [0, 1] [1, 0]) "b") "The vertex must be 'A', 'B', or 'C'."
#guard raises (Triangle.altitude (T [0, 0] [0, 1] [1, 0]) "b") "The vertex must be 'A', 'B', or 'C'."
#guard raises (Triangle.point (T [0, 0] [0, 1] [1, 0]) "c") "The vertex must be 'A', 'B', or 'C'."
#guard raises (Triangle.angle (T [0, 0] [0, 1] [1, 0]) "c") "The vertex must be 'A', 'B', or 'C'."
#guard raises (Triangle.altitude (T [0, 0] [0, 1] [1, 0]) "c") "The vertex must be 'A', 'B', or 'C'."
#guard raises (Triangle.point (T [0, 0] [0, 1] [1, 0]) "d") "The vertex must be 'A', 'B', or 'C'."
#guard raises (Triangle.angle (T [0, 0] [0, 1] [1, 0]) "d") "The vertex must be 'A', 'B', or 'C'."
#guard raises (Triangle.altitude (T [0, 0] [0, 1] [1, 0]) "d") "The vertex must be 'A', 'B', or 'C'."
#guard raises (Triangle.point (T [0, 0] [0, 1] [1, 0]) "D") "The vertex must be 'A', 'B', or 'C'."
#guard raises (Triangle.angle (T [0, 0] [0, 1] [1, 0]) "D") "The vertex must be 'A', 'B', or 'C'."
#guard raises (Triangle.altitude (T [0, 0] [0, 1] [1, 0]) "D") "The vertex must be 'A', 'B', or 'C'."

-- test_triangle.py: test_failure_line
#guard raises (Triangle.line (T [0, 0] [0, 1] [1, 0]) "A") "The side must be 'a', 'b', or 'c'."
#guard raises (Triangle.length (T [0, 0] [0, 1] [1, 0]) "A") "The side must be 'a', 'b', or 'c'."
#guard raises (Triangle.line (T [0, 0] [0, 1] [1, 0]) "B") "The side must be 'a', 'b', or 'c'."
#guard raises (Triangle.length (T [0, 0] [0, 1] [1, 0]) "B") "The side must be 'a', 'b', or 'c'."
#guard raises (Triangle.line (T [0, 0] [0, 1] [1, 0]) "C") "The side must be 'a', 'b', or 'c'."
#guard raises (Triangle.length (T [0, 0] [0, 1] [1, 0]) "C") "The side must be 'a', 'b', or 'c'."
#guard raises (Triangle.line (T [0, 0] [0, 1] [1, 0]) "D") "The side must be 'a', 'b', or 'c'."
#guard raises (Triangle.length (T [0, 0] [0, 1] [1, 0]) "D") "The side must be 'a', 'b', or 'c'."

-- test_cylinder.py: test_failure
#guard raises (Cylinder.new [0, 0] [1, 0, 0] (1 : F)) "The point must be 3D."
#guard raises (Cylinder.new [0, 0, 0] [1, 0] (1 : F)) "The vector must be 3D."
#guard raises (Cylinder.new [0, 0, 0] [0, 0, 0] (1 : F)) "The vector must not be the zero vector."
#guard raises (Cylinder.new [0, 0, 0] [0, 0, 1] (0 : F)) "The radius must be positive."

-- test_cylinder.py: test_from_points
#guard ok (Cylinder.fromPoints [0, 0, 0] [0, 0, 1] (1 : F)) fun c => tightL c.point [0, 0, 0] && tightL c.vector [0, 0, 1] && exactly c.radius 1
#guard ok (Cylinder.fromPoints [0, 0, 1] [0, 0, 2] (1 : F)) fun c => tightL c.point [0, 0, 1] && tightL c.vector [0, 0, 1] && exactly c.radius 1
#guard ok (Cylinder.fromPoints [0, 0, 0] [1, 1, 1] (1 : F)) fun c => tightL c.point [0, 0, 0] && tightL c.vector [1, 1, 1] && exactly c.radius 1
#guard ok (Cylinder.fromPoints [2, 2, 2] [1, 1, 1] (5 : F)) fun c => tightL c.point [2, 2, 2] && tightL c.vector [(-1), (-1), (-1)] && exactly c.radius 5

-- test_cylinder.py: test_properties
#guard tight (Cylinder.length (Cy [0, 0, 0] [0, 0, 1] 1)) 1 && tight (Cylinder.volume (Cy [0, 0, 0] [0, 0, 1] 1)) 3.141592653589793
#guard tight (Cylinder.length (Cy [0, 0, 0] [0, 0, 1] 2)) 1 && tight (Cylinder.volume (Cy [0, 0, 0] [0, 0, 1] 2)) 12.566370614359172
#guard tight (Cylinder.length (Cy [0, 0, 0] [0, 0, 2] 1)) 2 && tight (Cylinder.volume (Cy [0, 0, 0] [0, 0, 2] 1)) 6.283185307179586
#guard tight (Cylinder.length (Cy [0, 0, 0] [0, 0, 2] 2)) 2 && tight (Cylinder.volume (Cy [0, 0, 0] [0, 0, 2] 2)) 25.132741228718345
#guard tight (Cylinder.length (Cy [1, 1, 1] [0, 0, 2] 2)) 2 && tight (Cylinder.volume (Cy [1, 1, 1] [0, 0, 2] 2)) 25.132741228718345
#guard tight (Cylinder.length (Cy [0, 0, 0] [0, 1, 1] 1)) 1.4142135623730951 && tight (Cylinder.volume (Cy [0, 0, 0] [0, 1, 1] 1)) 4.442882938158366
#guard tight (Cylinder.length (Cy [0, 0, 0] [1, 1, 1] 1)) 1.7320508075688772 && tight (Cylinder.volume (Cy [0, 0, 0] [1, 1, 1] 1)) 5.441398092702653
#guard tight (Cylinder.length (Cy [0, 0, 0] [5, 5, 5] 2)) 8.660254037844386 && tight (Cylinder.volume (Cy [0, 0, 0] [5, 5, 5] 2)) 108.82796185405306

-- test_cylinder.py: test_surface_area
#guard tight (Cylinder.lateralSurfaceArea (Cy [0, 0, 0] [0, 0, 1] 1)) 6.283185307179586 && tight (Cylinder.surfaceArea (Cy [0, 0, 0] [0, 0, 1] 1)) 12.566370614359172
#guard tight (Cylinder.lateralSurfaceArea (Cy [0, 0, 0] [0, 0, 2] 1)) 12.566370614359172 && tight (Cylinder.surfaceArea (Cy [0, 0, 0] [0, 0, 2] 1)) 18.84955592153876
#guard tight (Cylinder.lateralSurfaceArea (Cy [0, 0, 0] [0, 0, 1] 2)) 12.566370614359172 && tight (Cylinder.surfaceArea (Cy [0, 0, 0] [0, 0, 1] 2)) 37.69911184307752
#guard tight (Cylinder.lateralSurfaceArea (Cy [0, 0, 0] [0, 0, 2] 2)) 25.132741228718345 && tight (Cylinder.surfaceArea (Cy [0, 0, 0] [0, 0, 2] 2)) 50.26548245743669
#guard tight (Cylinder.lateralSurfaceArea (Cy [0, 0, 0] [0, 0, (-2)] 2)) 25.132741228718345 && tight (Cylinder.surfaceArea (Cy [0, 0, 0] [0, 0, (-2)] 2)) 50.26548245743669

-- test_cylinder.py: test_cylinder_is_point_within
#guard yes (Cylinder.isPointWithin (Cy [0, 0, 0] [0, 0, 1] 1) [0, 0, 0])
#guard yes (Cylinder.isPointWithin (Cy [0, 0, 0] [0, 0, 1] 1) [0, 0, 1])
#guard yes (Cylinder.isPointWithin (Cy [0, 0, 0] [0, 0, 1] 1) [0, 0, 0.9])
#guard no (Cylinder.isPointWithin (Cy [0, 0, 0] [0, 0, 1] 1) [0, 0, 1.1])
#guard no (Cylinder.isPointWithin (Cy [0, 0, 0] [0, 0, 1] 1) [0, 0, (-0.1)])
#guard yes (Cylinder.isPointWithin (Cy [0, 0, 0] [0, 0, 1] 1) [1, 0, 0])
#guard no (Cylinder.isPointWithin (Cy [0, 0, 0] [0, 0, 1] 1) [2, 0, 0])
#guard yes (Cylinder.isPointWithin (Cy [0, 0, 0] [0, 0, 1] 1) [(-1), 0, 0])
#guard no (Cylinder.isPointWithin (Cy [0, 0, 0] [0, 0, 1] 1) [(-2), 0, 0])
#guard no (Cylinder.isPointWithin (Cy [0, 0, 0] [0, 0, 1] 1) [1, 1, 0])
#guard yes (Cylinder.isPointWithin (Cy [0, 0, 0] [0, 0, 1] 1) [0.7071067811865476, 0.7071067811865476, 0])

-- test_cylinder.py: test_intersect_cylinder_line
#guard tpair (Cylinder.intersectLine (Cy [0, 0, 0] [0, 0, 1] 1) (L [0, 0, 0] [1, 0, 0]) (some 9) true) [(-1), 0, 0] [1, 0, 0]
#guard tpair (Cylinder.intersectLine (Cy [0, 0, 0] [0, 0, 1] 1) (L [0, 0, 0.5] [1, 0, 0]) (some 9) true) [(-1), 0, 0.5] [1, 0, 0.5]
#guard tpair (Cylinder.intersectLine (Cy [0, 0, 0] [0, 0, 1] 2) (L [0, 0, 0] [1, 0, 0]) (some 9) true) [(-2), 0, 0] [2, 0, 0]
#guard tpair (Cylinder.intersectLine (Cy [0, 0, 0] [0, 0, 5] 1) (L [0, 0, 0] [1, 0, 0]) (some 9) true) [(-1), 0, 0] [1, 0, 0]
#guard tpair (Cylinder.intersectLine (Cy [0, 0, 0] [0, 0, 1] 1) (L [0, 0, 0] [1, 1, 0]) (some 9) true) [(-0.7071067811865476), (-0.7071067811865476), 0] [0.7071067811865476, 0.7071067811865476, 0]
#guard tpair (Cylinder.intersectLine (Cy [0, 0, 0] [0, 0, 1] 1) (L [0, 0, 0] [1, 1, 1]) (some 9) true) [(-0.7071067811865476), (-0.7071067811865476), (-0.7071067811865476)] [0.7071067811865476, 0.7071067811865476, 0.7071067811865476]
#guard tpair (Cylinder.intersectLine (Cy [0, 0, 0] [0, 0, 1] 1) (L [0, (-1), 0] [1, 0, 0]) (some 9) true) [0, (-1), 0] [0, (-1), 0]
#guard tpair (Cylinder.intersectLine (Cy [0, 0, 0] [0, 0, 1] 1) (L [0, 1, 0] [1, 0, 0]) (some 9) true) [0, 1, 0] [0, 1, 0]
#guard tpair (Cylinder.intersectLine (Cy [1, 0, 0] [0, 0, 1] 1) (L [0, (-1), 0] [1, 0, 0]) (some 9) true) [1, (-1), 0] [1, (-1), 0]

-- test_cylinder.py: test_intersect_cylinder_line_with_caps
#guard tpair (Cylinder.intersectLine (Cy [0, 0, 0] [0, 0, 1] 1) (L [0, 0, 0] [0, 0, 1]) none false) [0, 0, 0] [0, 0, 1]
#guard tpair (Cylinder.intersectLine (Cy [0, 0, 0] [0, 0, 2] 1) (L [0, 0, 1] [1, 0, 0]) none false) [(-1), 0, 1] [1, 0, 1]
#guard tpair (Cylinder.intersectLine (Cy [0, 0, 0] [0, 0, 1] 1) (L [1, 0, 0] [1, 0, 1]) none false) [1, 0, 0] [1, 0, 0]
#guard tpair (Cylinder.intersectLine (Cy [0, 0, 0] [0, 0, 2] 1) (L [(-1), 0, 1] [0, 1, 0]) none false) [(-1), 0, 1] [(-1), 0, 1]
#guard tpair (Cylinder.intersectLine (Cy [0, 0, 0] [0, 0, 2] 1) (L [(-1), 0, 1] [0, 1, 1]) none false) [(-1), 0, 1] [(-1), 0, 1]
#guard tpair (Cylinder.intersectLine (Cy [0, 0, 0] [0, 0, 5] 1) (L [0, 0, 0] [1, 0, 1]) none false) [0, 0, 0] [1, 0, 1]
#guard tpair (Cylinder.intersectLine (Cy [0, 0, 0] [0, 0, 5] 1) (L [0, 0, 5] [1, 0, (-1)]) none false) [0, 0, 5] [1, 0, 4]

-- test_cylinder.py: test_intersect_cylinder_line_failure
#guard raises (Cylinder.intersectLine (Cy [0, 0, 0] [0, 0, 1] 1) (L [0, (-2), 0] [1, 0, 0]) none true) "The line does not intersect the cylinder."
#guard raises (Cylinder.intersectLine (Cy [0, 0, 0] [0, 0, 1] 1) (L [0, (-2), 0] [1, 0, 1]) none true) "The line does not intersect the cylinder."
#guard raises (Cylinder.intersectLine (Cy [3, 10, 4] [(-1), 2, (-3)] 3) (L [0, (-2), 0] [1, 0, 1]) none true) "The line does not intersect the cylinder."
#guard raises (Cylinder.intersectLine (Cy [3, 10, 4] [(-1), 2, (-3)] 3) (L [0, 0] [1, 0]) none true) "The line must be 3D."
#guard raises (Cylinder.intersectLine (Cy [3, 10, 4] [(-1), 2, (-3)] 3) (L [0, 0, 0, 0] [1, 0, 0, 0]) none true) "The line must be 3D."

-- test_cylinder.py: test_intersect_cylinder_line_with_caps_failure
#guard raises (Cylinder.intersectLine (Cy [0, 0, 0] [0, 0, 1] 1) (L [0, 0, (-1)] [1, 0, 0]) none false) "The line does not intersect the cylinder."

-- test_cylinder.py: test_to_points
#guard tmat (do Pts.unique ((← Cylinder.toPoints (Cy [0, 0, 0] [0, 0, 1] 1) 1 1).map (roundValues 3))) [[(-1), 0, 0]]
#guard tmat (do Pts.unique ((← Cylinder.toPoints (Cy [0, 0, 0] [0, 0, 1] 1) 3 2).map (roundValues 3))) [[(-1), 0, 0], [(-1), 0, 0.5], [(-1), 0, 1]]
#guard tmat (do Pts.unique ((← Cylinder.toPoints (Cy [0, 0, 0] [0.707, 0.707, 0] 1) 1 3).map (roundValues 3))) [[(-0.707), 0.707, 0], [0.707, (-0.707), 0]]

-- test_cylinder.py: test_best_fit
#guard ok (Cylinder.bestFit [[2, 0, 0], [0, 2, 0], [0, (-2), 0], [2, 0, 4], [0, 2, 4], [0, (-2), 4]]) fun c => near (Vec.norm c.vector) 4.0 && yes (Vec.isParallel dflt c.vector [0, 0, 4]) && near c.radius 2.0
#guard ok (Cylinder.bestFit [[(-2), 0, 1], [(-2), 1, 0], [(-2), (-1), 0], [3, 0, 1], [3, 1, 0], [3, (-1), 0]]) fun c => near (Vec.norm c.vector) 5.0 && yes (Vec.isParallel dflt c.vector [5, 0, 0]) && near c.radius 1.0
#guard ok (Cylinder.bestFit [[(-3), 3, 0], [0, 3, 3], [0, 3, (-3)], [(-3), (-12), 0], [0, (-12), 3], [0, (-12), (-3)]]) fun c => near (Vec.norm c.vector) 15.0 && yes (Vec.isParallel dflt c.vector [0, (-15), 0]) && near c.radius 3.0

-- test_cylinder.py: test_best_fit_failure
#guard raises (Cylinder.bestFit ([[1, 0], [(-1), 0], [0, 1]] : List (List F))) "The points must be 3D."
#guard raises (Cylinder.bestFit ([[2, 0, 1], [(-2), 0, (-3)]] : List (List F))) "There must be at least 6 points."
#guard raises (Cylinder.bestFit ([[0, 0, 1], [1, 1, 1], [2, 1, 1], [3, 3, 1], [4, 4, 1], [5, 5, 1]] : List (List F))) "The points must not be coplanar."

end SkSpatial.UnitTests
