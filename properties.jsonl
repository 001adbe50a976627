{"id": "C01", "title": "Point/Vector constructor accepts exactly the valid arrays", "statement": "Point(a) and Vector(a) succeed if and only if a is one-dimensional, non-empty and all its values are finite (no NaN, no infinity); on success the stored values are exactly the input values and `dimension` is their number. Otherwise ValueError is raised with the message for the first failed test, in the order 1D, non-empty, finite.", "quantifier": "every array of any shape, with any mix of finite, NaN and infinite entries", "why_tests_cant": "the input space (all shapes, all NaN/inf placements) is infinite", "anchors": ["src/skspatial/objects/_base_array.py:_BaseArray.__new__", "src/skspatial/objects/_base_array.py:_BaseArray1D.__new__", "src/skspatial/objects/_base_array.py:_BaseArray1D.__array_finalize__"]}
{"id": "C02", "title": "Points constructor accepts exactly the valid arrays", "statement": "Points(a) succeeds if and only if a is two-dimensional, non-empty and all finite; on success the rows are unchanged and `dimension` is the row width. Otherwise ValueError.", "quantifier": "every array of any shape, with any mix of finite, NaN and infinite entries", "why_tests_cant": "infinite input space", "anchors": ["src/skspatial/objects/_base_array.py:_BaseArray2D.__new__", "src/skspatial/objects/points.py:Points"]}
{"id": "C03", "title": "set_dimension pads with zeros and never loses data", "statement": "x.set_dimension(d) raises ValueError iff d < x.dimension; otherwise the result has dimension d, starts with x's values and is zero afterwards. It is idempotent, composes (going to d then e equals going to e directly) and preserves norms, dot products and distances; the 2D version acts on every row.", "quantifier": "every vector/point/points of every dimension and every integer d", "why_tests_cant": "all dimensions, all values", "anchors": ["src/skspatial/objects/_base_array.py:_BaseArray1D.set_dimension", "src/skspatial/objects/_base_array.py:_BaseArray2D.set_dimension"]}
{"id": "C04", "title": "Line and Plane constructors reject exactly the degenerate inputs", "statement": "Line(p, v) / Plane(p, v) succeed iff p and v are valid, have the same dimension and v is not the zero vector; the stored point and vector are the inputs. Otherwise ValueError.", "quantifier": "every pair of arrays of every dimension", "why_tests_cant": "all dimensions and values", "anchors": ["src/skspatial/objects/_base_line_plane.py:_BaseLinePlane.__init__", "src/skspatial/objects/line.py:Line.__init__", "src/skspatial/objects/plane.py:Plane.__init__"]}
{"id": "C05", "title": "Circle, Sphere and Cylinder constructors reject exactly the degenerate inputs", "statement": "Circle(p, r) succeeds iff p is a valid 2D point and r > 0; Sphere(p, r) iff p is a valid 3D point and r > 0; Cylinder(p, v, r) iff p and v are valid 3D, v is non-zero and r > 0. Otherwise ValueError. (For a NaN radius the claim fails for Circle/Sphere; that is recorded as a defect.)", "quantifier": "every point, vector and radius, NaN and infinities included", "why_tests_cant": "all values incl. special floats", "anchors": ["src/skspatial/objects/_base_sphere.py:_BaseSphere.__init__", "src/skspatial/objects/circle.py:Circle.__init__", "src/skspatial/objects/sphere.py:Sphere.__init__", "src/skspatial/objects/cylinder.py:Cylinder.__init__"]}
{"id": "C06", "title": "distance_point between points is a metric", "statement": "Point.distance_point is the Euclidean distance: non-negative, zero iff the points are equal, symmetric, satisfies the triangle inequality, invariant under translation. Points of different dimensions (neither being 1) raise ValueError. Unless said otherwise arithmetic is exact real arithmetic (floating-point rounding is excluded from the claim).", "quantifier": "all points of all dimensions", "why_tests_cant": "universally quantified inequality over reals", "anchors": ["src/skspatial/objects/point.py:Point.distance_point", "src/skspatial/objects/vector.py:Vector.from_points", "src/skspatial/objects/vector.py:Vector.norm"]}
{"id": "C07", "title": "unit() has magnitude one and the same direction", "statement": "v.unit() raises ValueError iff v is the zero vector; otherwise it has norm 1 and v = |v| * v.unit(); it is idempotent, unchanged by positive scaling and negated by negative scaling. Unless said otherwise arithmetic is exact real arithmetic (floating-point rounding is excluded from the claim).", "quantifier": "every vector of every dimension", "why_tests_cant": "all reals", "anchors": ["src/skspatial/objects/vector.py:Vector.unit"]}
{"id": "C08", "title": "is_zero tests the squared magnitude against the tolerance", "statement": "With the default tolerances v.is_zero() is True iff v is exactly zero. With rel_tol < 1, v.is_zero(rel_tol, abs_tol) iff |v|^2 <= abs_tol (or v = 0); with rel_tol >= 1 it is always True; negative tolerances raise ValueError. Unless said otherwise arithmetic is exact real arithmetic (floating-point rounding is excluded from the claim).", "quantifier": "every vector, every pair of tolerances", "why_tests_cant": "all reals", "anchors": ["src/skspatial/objects/vector.py:Vector.is_zero"]}
{"id": "C09", "title": "cross product is perpendicular, anticommutative and has the right length", "statement": "u.cross(v) (u, v of dimension <= 3, zero-padded to 3D) is perpendicular to both inputs, u x v = -(v x u), |u x v|^2 = |u|^2|v|^2 - (u.v)^2, it is zero iff u and v are linearly dependent, and right-handed (det[u, v, u x v] >= 0). A dimension above 3 raises ValueError. Unless said otherwise arithmetic is exact real arithmetic (floating-point rounding is excluded from the claim).", "quantifier": "all vectors of dimension 1..3 and higher", "why_tests_cant": "all reals", "anchors": ["src/skspatial/objects/vector.py:Vector.cross"]}
{"id": "C10", "title": "cosine_similarity stays in [-1, 1] whatever the rounding", "statement": "For every way in which the floating-point operations round (no assumption on the computed dot product and norms at all), a cosine_similarity that is returned and is not NaN lies in [-1, 1]; hence angle_between never raises a math domain error and returns a value in [0, pi]. In exact arithmetic it is the cosine of the angle, it is symmetric, and ValueError is raised iff either vector is zero.", "quantifier": "all vectors and all rounding behaviours", "why_tests_cant": "rounding behaviours cannot be enumerated", "anchors": ["src/skspatial/objects/vector.py:Vector.cosine_similarity", "src/skspatial/objects/vector.py:Vector.angle_between"]}
{"id": "C11", "title": "angle_between is the Euclidean angle", "statement": "For non-zero vectors u.angle_between(v) is the unoriented Euclidean angle: symmetric, in [0, pi], unchanged by positive scaling, complemented to pi by negation, zero iff v is a positive multiple of u; the angles between three vectors satisfy the triangle inequality. Unless said otherwise arithmetic is exact real arithmetic (floating-point rounding is excluded from the claim).", "quantifier": "all non-zero vectors of all dimensions", "why_tests_cant": "all reals", "anchors": ["src/skspatial/objects/vector.py:Vector.angle_between"]}
{"id": "C12", "title": "angle_signed is the oriented 2D angle", "statement": "For 2D vectors u.angle_signed(v) lies in (-pi, pi]; rotating u counter-clockwise by it gives the direction of v; its absolute value is angle_between; swapping the arguments negates it (unless it is pi); if one vector is zero the result is 0; non-2D input raises ValueError. Unless said otherwise arithmetic is exact real arithmetic (floating-point rounding is excluded from the claim).", "quantifier": "all 2D vectors", "why_tests_cant": "all reals", "anchors": ["src/skspatial/objects/vector.py:Vector.angle_signed"]}
{"id": "C13", "title": "angle_signed_3d is the oriented 3D angle", "statement": "For 3D vectors and a non-zero direction n that is_parallel accepts as parallel to u x v, u.angle_signed_3d(v, n) lies in [-pi, pi], has absolute value angle_between(u, v), is >= 0 when u x v points along n and <= 0 when it points against; negating n negates it (unless it is pi); if n is not accepted as parallel to u x v, or not 3D, ValueError. Unless said otherwise arithmetic is exact real arithmetic (floating-point rounding is excluded from the claim).", "quantifier": "all 3D vectors", "why_tests_cant": "all reals", "anchors": ["src/skspatial/objects/vector.py:Vector.angle_signed_3d"]}
{"id": "C14", "title": "is_perpendicular and is_parallel characterise the angle", "statement": "u.is_perpendicular(v) by default iff u.v = 0. u.is_parallel(v) by default iff u or v is zero or |cos(u, v)| >= 1 - 1e-9; in particular it is True for every pair of exactly parallel vectors, symmetric, invariant under non-zero scaling of either argument, and a pair it accepts makes an angle whose sine is below 4.5e-5. Parallelism is however not transitive (nearly parallel vectors are accepted). With rel_tol >= 1 both are True for every pair; a negative tolerance raises ValueError. Unless said otherwise arithmetic is exact real arithmetic (floating-point rounding is excluded from the claim).", "quantifier": "all vectors of all dimensions, all tolerances", "why_tests_cant": "all reals", "anchors": ["src/skspatial/objects/vector.py:Vector.is_perpendicular", "src/skspatial/objects/vector.py:Vector.is_parallel"]}
{"id": "C15", "title": "side_vector tells right from left", "statement": "For 2D vectors u.side_vector(v) is 1, 0 or -1 according to whether v points to the right of u, is parallel to it, or points to the left: it is the sign of u_y v_x - u_x v_y; swapping arguments flips it; positive scaling keeps it; other dimensions raise ValueError. Unless said otherwise arithmetic is exact real arithmetic (floating-point rounding is excluded from the claim).", "quantifier": "all 2D vectors", "why_tests_cant": "all reals", "anchors": ["src/skspatial/objects/vector.py:Vector.side_vector"]}
{"id": "C16", "title": "project_vector is the orthogonal projection", "statement": "For non-zero u, p = u.project_vector(v) is the multiple of u closest to v: p is parallel to u, v - p is perpendicular to u, projecting twice changes nothing, |p| = |u.scalar_projection(v)| and |p| <= |v|. For zero u the result is all NaN, not an exception. Unless said otherwise arithmetic is exact real arithmetic (floating-point rounding is excluded from the claim).", "quantifier": "all vectors of all dimensions", "why_tests_cant": "all reals", "anchors": ["src/skspatial/objects/vector.py:Vector.project_vector", "src/skspatial/objects/vector.py:Vector.scalar_projection"]}
{"id": "C17", "title": "different_direction is really different", "statement": "For every non-zero v of dimension >= 2, v.different_direction() is a unit coordinate vector and v.is_parallel of it is False (so their cross product is non-zero); in dimension 1 it is the unit vector pointing the other way; the zero vector raises ValueError. With keyword tolerances the vectors that are zero for the tolerance raise ValueError, otherwise the result is the first coordinate vector, or the second if is_parallel accepts the first, and is_parallel rejects it for all tolerances up to 1/4. Unless said otherwise arithmetic is exact real arithmetic (floating-point rounding is excluded from the claim).", "quantifier": "every vector of every dimension, all tolerances", "why_tests_cant": "all reals, near-parallel boundary", "anchors": ["src/skspatial/objects/vector.py:Vector.different_direction"]}
{"id": "C18", "title": "Points.unique returns each distinct row once, sorted", "statement": "points.unique() contains exactly the distinct rows of points, each once, in strictly increasing lexicographic order; it is idempotent and independent of the order and multiplicity of the input rows.", "quantifier": "every finite list of rows", "why_tests_cant": "all lists, all permutations", "anchors": ["src/skspatial/objects/points.py:Points.unique"]}
{"id": "C19", "title": "centroid and mean_center", "statement": "points.centroid() is the arithmetic mean of the rows and minimises the sum of squared distances to the points; points.mean_center() has centroid zero, keeps all pairwise differences, and adding back the returned centroid restores the points; mean_center is idempotent and invariant under translation. Unless said otherwise arithmetic is exact real arithmetic (floating-point rounding is excluded from the claim).", "quantifier": "every non-empty list of points of any dimension", "why_tests_cant": "all lists", "anchors": ["src/skspatial/objects/points.py:Points.centroid", "src/skspatial/objects/points.py:Points.mean_center"]}
{"id": "C20", "title": "normalize_distance puts the points in the unit ball, touching it", "statement": "If some point is not the origin, every row of points.normalize_distance() has norm at most 1, some row has norm exactly 1, ratios are preserved, and the operation is idempotent. If all points are the origin the result is NaN. Unless said otherwise arithmetic is exact real arithmetic (floating-point rounding is excluded from the claim).", "quantifier": "every non-empty list of points of any dimension", "why_tests_cant": "all lists", "anchors": ["src/skspatial/objects/points.py:Points.normalize_distance"]}
{"id": "C21", "title": "affine_rank is the affine dimension, up to the tolerance", "statement": "points.affine_rank(tol=t) never exceeds the dimension of the smallest affine space containing the points, equals it when t is below the smallest non-zero singular value of the centred distinct points (in particular t = 0), is antitone in t, and does not depend on order or multiplicity of the points. Without tol it is the largest dimension of a subspace in all of whose directions the distinct points spread by more than 2^-52 max(number of distinct points, n) times their largest spread. Given that matrix_rank counts singular values above the tolerance. Unless said otherwise arithmetic is exact real arithmetic (floating-point rounding is excluded from the claim).", "quantifier": "every list of points, every tolerance >= 0", "why_tests_cant": "all matrices", "anchors": ["src/skspatial/objects/points.py:Points.affine_rank"]}
{"id": "C22", "title": "are_concurrent / are_collinear / are_coplanar", "statement": "The predicates are True whenever the points really lie in a common point / line / plane; with tolerance 0 also only then; each implies the next; they are invariant under permutation, duplication and translation of the points. Given the contract of matrix_rank. Unless said otherwise arithmetic is exact real arithmetic (floating-point rounding is excluded from the claim).", "quantifier": "every list of points", "why_tests_cant": "all matrices", "anchors": ["src/skspatial/objects/points.py:Points.are_concurrent", "src/skspatial/objects/points.py:Points.are_collinear", "src/skspatial/objects/points.py:Points.are_coplanar"]}
{"id": "C23", "title": "Line.from_points, from_slope and to_point agree with the line equation", "statement": "Line.from_points(a, b) fails iff a = b (same dimension) and otherwise is the line through a and b with to_point(0) = a, to_point(1) = b; Line.from_slope(m, b) contains exactly the points with y = m x + b; to_point(t) ranges over exactly the points of the line, injectively. Unless said otherwise arithmetic is exact real arithmetic (floating-point rounding is excluded from the claim).", "quantifier": "all points, slopes and parameters", "why_tests_cant": "all reals", "anchors": ["src/skspatial/objects/line.py:Line.from_points", "src/skspatial/objects/line.py:Line.from_slope", "src/skspatial/objects/line.py:Line.to_point"]}
{"id": "C24", "title": "Line.project_point is the nearest point of the line", "statement": "line.project_point(p) lies on the line, p minus it is perpendicular to the direction, no point of the line is closer to p and it is the only closest one; a point on the line is its own projection; line.distance_point(p) is that minimal distance and is zero iff p is on the line (so contains_point by default iff p is on the line). Unless said otherwise arithmetic is exact real arithmetic (floating-point rounding is excluded from the claim).", "quantifier": "all lines and points of all dimensions", "why_tests_cant": "all reals", "anchors": ["src/skspatial/objects/line.py:Line.project_point", "src/skspatial/objects/line.py:Line.distance_point", "src/skspatial/objects/_base_line_plane.py:_BaseLinePlane.contains_point", "src/skspatial/_functions.py:_contains_point"]}
{"id": "C25", "title": "Line batch methods agree with the single-point methods", "statement": "line.project_points(ps) and line.distance_points(ps) are, row by row, line.project_point and line.distance_point; sum_squares is the sum of squared distances. Unless said otherwise arithmetic is exact real arithmetic (floating-point rounding is excluded from the claim).", "quantifier": "all lines, all finite lists of points of the same dimension", "why_tests_cant": "all lists", "anchors": ["src/skspatial/objects/line.py:Line.project_points", "src/skspatial/objects/line.py:Line.distance_points", "src/skspatial/objects/_base_line_plane.py:_BaseLinePlane.sum_squares", "src/skspatial/_functions.py:_sum_squares"]}
{"id": "C26", "title": "Line.side_point", "statement": "For a 2D line, side_point is 0 iff the point is on the line, 1 iff strictly right of its direction, -1 iff strictly left; reversing the direction flips it; it depends only on the oriented line and not on the base point or the length of the direction. Unless said otherwise arithmetic is exact real arithmetic (floating-point rounding is excluded from the claim).", "quantifier": "all 2D lines and points", "why_tests_cant": "all reals", "anchors": ["src/skspatial/objects/line.py:Line.side_point"]}
{"id": "C27", "title": "Line.distance_line is the minimal distance between the lines", "statement": "In dimension <= 3 the value returned is the infimum of distances between points of the two lines, for lines that are exactly parallel, or not parallel within the tolerance of is_parallel (and coplanarity decided exactly); it is symmetric. Between those cases (nearly but not exactly parallel lines) the claim is false and a counterexample is given. Unless said otherwise arithmetic is exact real arithmetic (floating-point rounding is excluded from the claim).", "quantifier": "all pairs of lines in dimension <= 3", "why_tests_cant": "all reals", "anchors": ["src/skspatial/objects/line.py:Line.distance_line", "src/skspatial/objects/line.py:Line.is_coplanar"]}
{"id": "C28", "title": "Line.intersect_line returns the common point", "statement": "When line_a.intersect_line(line_b) returns, in 2D or for exactly coplanar lines in 3D, the point lies on both lines and is their only common point; it raises for lines accepted as parallel, of different dimension, of dimension above 3 or (3D, check on) not coplanar; conversely lines with exactly one common point and |cos| < 1 - 1e-9 always give it; it is symmetric. Unless said otherwise arithmetic is exact real arithmetic (floating-point rounding is excluded from the claim).", "quantifier": "all pairs of lines", "why_tests_cant": "all reals", "anchors": ["src/skspatial/objects/line.py:Line.intersect_line"]}
{"id": "C29", "title": "intersect_line without the coplanarity check returns the closest point of the first line", "statement": "With check_coplanar=False, for non-parallel 3D lines the returned point is on line A and is the point of A closest to line B. Unless said otherwise arithmetic is exact real arithmetic (floating-point rounding is excluded from the claim).", "quantifier": "all pairs of non-parallel 3D lines", "why_tests_cant": "all reals", "anchors": ["src/skspatial/objects/line.py:Line.intersect_line"]}
{"id": "C30", "title": "is_close on lines and planes recognises equal sets", "statement": "line_a.is_close(line_b) (default tolerances) is True iff line_b's point is on line_a and the directions are parallel within tolerance; so it is True whenever the lines are the same set of points, for planes likewise; reflexive; other types raise TypeError. Unless said otherwise arithmetic is exact real arithmetic (floating-point rounding is excluded from the claim).", "quantifier": "all pairs of lines / planes of equal dimension", "why_tests_cant": "all reals", "anchors": ["src/skspatial/objects/_base_line_plane.py:_BaseLinePlane.is_close"]}
{"id": "C31", "title": "Line.best_fit minimises the sum of squared distances", "statement": "For points that are not concurrent, Line.best_fit passes through the centroid, has a unit direction, and no line has a smaller sum of squared distances to the points; the returned error is that minimal sum. Concurrent points raise ValueError. Given the contract of numpy's SVD. Unless said otherwise arithmetic is exact real arithmetic (floating-point rounding is excluded from the claim).", "quantifier": "every finite list of points of any dimension", "why_tests_cant": "quantifies over all competing lines", "anchors": ["src/skspatial/objects/line.py:Line.best_fit"]}
{"id": "C32", "title": "transform_points gives the signed coordinate along the line", "statement": "Coordinate i of line.transform_points(ps) is the t with project_point(p_i) = line.point + t * unit direction; independent of the length of the direction, negated when the direction is reversed; transform_coordinates with an orthonormal basis is inverted by the linear combination of the basis, for points in its span, and is an isometry there. Unless said otherwise arithmetic is exact real arithmetic (floating-point rounding is excluded from the claim).", "quantifier": "all lines, points, orthonormal families", "why_tests_cant": "all reals", "anchors": ["src/skspatial/objects/line.py:Line.transform_points", "src/skspatial/transformation.py:transform_coordinates"]}
{"id": "C33", "title": "Plane.from_vectors and from_points span what they should", "statement": "Plane.from_points(a, b, c) (when it returns) contains a, b, c; Plane.from_vectors(p, u, v) contains exactly the points p + s u + t v (zero-padded to 3D); swapping the two vectors gives the same plane with the opposite normal; collinear points / parallel vectors raise ValueError. Unless said otherwise arithmetic is exact real arithmetic (floating-point rounding is excluded from the claim).", "quantifier": "all points and vectors of dimension <= 3", "why_tests_cant": "all reals", "anchors": ["src/skspatial/objects/plane.py:Plane.from_vectors", "src/skspatial/objects/plane.py:Plane.from_points"]}
{"id": "C34", "title": "Plane.cartesian is the equation of the plane", "statement": "For dimension <= 3 the coefficients (a, b, c, d) satisfy: a x + b y + c z + d = 0 iff (x, y, z) is on the plane (extended along missing axes), (a, b, c) is the normal; dimension above 3 raises ValueError. Unless said otherwise arithmetic is exact real arithmetic (floating-point rounding is excluded from the claim).", "quantifier": "all planes and points", "why_tests_cant": "all reals", "anchors": ["src/skspatial/objects/plane.py:Plane.cartesian"]}
{"id": "C35", "title": "Plane.project_point and distances", "statement": "plane.project_point(p) is the unique closest point of the plane to p; distance_point is that distance; distance_point_signed is positive in front, negative behind, zero on the plane, with |signed| = distance and p = projection + signed * unit normal; side_point is its sign. Unless said otherwise arithmetic is exact real arithmetic (floating-point rounding is excluded from the claim).", "quantifier": "all planes and points of all dimensions", "why_tests_cant": "all reals", "anchors": ["src/skspatial/objects/plane.py:Plane.project_point", "src/skspatial/objects/plane.py:Plane.distance_point_signed", "src/skspatial/objects/plane.py:Plane.distance_point", "src/skspatial/objects/plane.py:Plane.side_point"]}
{"id": "C36", "title": "Plane batch methods agree with the single-point methods", "statement": "plane.project_points, distance_points_signed and distance_points are row by row the single-point methods. Unless said otherwise arithmetic is exact real arithmetic (floating-point rounding is excluded from the claim).", "quantifier": "all planes, all finite lists of points", "why_tests_cant": "all lists", "anchors": ["src/skspatial/objects/plane.py:Plane.project_points", "src/skspatial/objects/plane.py:Plane.distance_points_signed", "src/skspatial/objects/plane.py:Plane.distance_points"]}
{"id": "C37", "title": "Plane.project_vector and project_line", "statement": "plane.project_vector(v) is the component of v parallel to the plane: perpendicular to the normal with v minus it parallel to the normal; plane.project_line(l) raises ValueError iff l is accepted as perpendicular to the plane, and otherwise (default tolerances) is the set of projections of the points of l. For arbitrary tolerances the result passes through the projection of the point of l, and is the set of projections unless the direction of l is accepted as perpendicular to the normal: then that direction is kept, so with abs_tol > 0 the result may leave the plane (defect). Unless said otherwise arithmetic is exact real arithmetic (floating-point rounding is excluded from the claim).", "quantifier": "all planes, vectors and lines", "why_tests_cant": "all reals", "anchors": ["src/skspatial/objects/plane.py:Plane.project_vector", "src/skspatial/objects/plane.py:Plane.project_line"]}
{"id": "C38", "title": "Plane.intersect_line returns the unique common point", "statement": "plane.intersect_line(l) raises ValueError iff the direction is perpendicular to the normal (default tolerance); otherwise the result is on the plane and on the line and is the only such point. Unless said otherwise arithmetic is exact real arithmetic (floating-point rounding is excluded from the claim).", "quantifier": "all planes and lines of the same dimension", "why_tests_cant": "all reals", "anchors": ["src/skspatial/objects/plane.py:Plane.intersect_line"]}
{"id": "C39", "title": "Plane.intersect_plane returns the whole common line", "statement": "For 3D planes whose normals are not accepted as parallel, the linear system is non-singular, and the returned line is exactly the set of common points; its base point is the common point closest to the origin. Normals accepted as parallel raise ValueError. Given the contract of numpy.linalg.solve. Unless said otherwise arithmetic is exact real arithmetic (floating-point rounding is excluded from the claim).", "quantifier": "all pairs of 3D planes", "why_tests_cant": "all reals", "anchors": ["src/skspatial/objects/plane.py:Plane.intersect_plane"]}
{"id": "C40", "title": "Plane.best_fit minimises the sum of squared distances", "statement": "For non-collinear 3D points, Plane.best_fit passes through the centroid, has a unit normal, and no plane has a smaller sum of squared distances; the returned error is that minimal sum. Given the contract of numpy's SVD. Unless said otherwise arithmetic is exact real arithmetic (floating-point rounding is excluded from the claim).", "quantifier": "every finite list of 3D points", "why_tests_cant": "quantifies over all competing planes", "anchors": ["src/skspatial/objects/plane.py:Plane.best_fit"]}
{"id": "C41", "title": "Plane.to_mesh / to_points lie on the plane", "statement": "Every point of plane.to_mesh(lims_x, lims_y) and to_points satisfies the plane's equation, in each of the three branches; the mesh has one point per pair of limits. Unless said otherwise arithmetic is exact real arithmetic (floating-point rounding is excluded from the claim).", "quantifier": "all planes of dimension 2 and 3, all limits", "why_tests_cant": "all reals, branch boundaries", "anchors": ["src/skspatial/objects/plane.py:Plane.to_mesh", "src/skspatial/objects/_mixins.py:_ToPointsMixin.to_points", "src/skspatial/_functions.py:_mesh_to_points"]}
{"id": "C42", "title": "Circle/Sphere distance_point and project_point", "statement": "distance_point(p) is the distance from p to the circle/sphere as a set; project_point(p) lies on it and is the closest point, and raises ValueError iff p is the center; contains_point by default iff |p - center| = radius. Unless said otherwise arithmetic is exact real arithmetic (floating-point rounding is excluded from the claim).", "quantifier": "all circles/spheres and points", "why_tests_cant": "all reals", "anchors": ["src/skspatial/objects/_base_sphere.py:_BaseSphere.distance_point", "src/skspatial/objects/_base_sphere.py:_BaseSphere.project_point", "src/skspatial/objects/_base_sphere.py:_BaseSphere.contains_point"]}
{"id": "C43", "title": "Circle.from_points is the circumscribed circle", "statement": "For three non-collinear 2D points the returned circle contains all three, it is the only circle that does, and no division by zero or negative square root happens; collinear points raise ValueError. Unless said otherwise arithmetic is exact real arithmetic (floating-point rounding is excluded from the claim).", "quantifier": "all triples of 2D points", "why_tests_cant": "all reals", "anchors": ["src/skspatial/objects/circle.py:Circle.from_points"]}
{"id": "C44", "title": "Circle.intersect_circle returns exactly the common points", "statement": "The two returned points are exactly the common points of the two circles (equal iff tangent); ValueError is raised iff the centres coincide or the circles have no common point. Unless said otherwise arithmetic is exact real arithmetic (floating-point rounding is excluded from the claim).", "quantifier": "all pairs of circles", "why_tests_cant": "all reals, tangent cases", "anchors": ["src/skspatial/objects/circle.py:Circle.intersect_circle"]}
{"id": "C45", "title": "Circle.intersect_line returns exactly the common points", "statement": "The two returned points are exactly the common points of circle and line, ordered along the upward direction of the line (along its own direction if it is horizontal); ValueError iff there is none. Unless said otherwise arithmetic is exact real arithmetic (floating-point rounding is excluded from the claim).", "quantifier": "all circles and 2D lines", "why_tests_cant": "all reals, tangent cases", "anchors": ["src/skspatial/objects/circle.py:Circle.intersect_line"]}
{"id": "C46", "title": "Sphere.intersect_line returns exactly the common points", "statement": "The two returned points are exactly the common points of sphere and line, ordered along the line's direction; ValueError iff there is none. Unless said otherwise arithmetic is exact real arithmetic (floating-point rounding is excluded from the claim).", "quantifier": "all spheres and 3D lines", "why_tests_cant": "all reals, tangent cases", "anchors": ["src/skspatial/objects/sphere.py:Sphere.intersect_line"]}
{"id": "C47", "title": "Circle.best_fit and Sphere.best_fit recover exact data and never fail numerically", "statement": "For points on a common circle (sphere) that are not collinear (coplanar) and whose least-squares system is well conditioned (numpy.linalg.lstsq with rcond=None cuts off no singular value), best_fit returns that circle (sphere). For any accepted points with a well-conditioned system the fit minimises the sum of (|p-c|^2 - r^2)^2 over all centers c and radii r, and the radius is the root mean square distance of the points to the fitted center, hence real and positive, so the constructor never raises. Without that condition (points far from the origin) the fit can be wrong by thousands of radii (defect). Given the contract of numpy.linalg.lstsq. Unless said otherwise arithmetic is exact real arithmetic (floating-point rounding is excluded from the claim).", "quantifier": "every finite list of points", "why_tests_cant": "all lists", "anchors": ["src/skspatial/objects/circle.py:Circle.best_fit", "src/skspatial/objects/sphere.py:Sphere.best_fit"]}
{"id": "C48", "title": "Sphere.to_mesh / to_points lie on the sphere", "statement": "Every point of the mesh is on the sphere; the matrices are n_angles x n_angles; the poles are included for n_angles >= 2. Unless said otherwise arithmetic is exact real arithmetic (floating-point rounding is excluded from the claim).", "quantifier": "all spheres, all n_angles", "why_tests_cant": "all n", "anchors": ["src/skspatial/objects/sphere.py:Sphere.to_mesh", "src/skspatial/objects/_mixins.py:_ToPointsMixin.to_points"]}
{"id": "C49", "title": "Areas and volumes of circle, sphere and cylinder are the true measures", "statement": "Circle.area is the Lebesgue measure of the disc, Sphere.volume that of the ball, Cylinder.volume that of the solid cylinder; Circle.circumference / Sphere.surface_area / Cylinder.lateral_surface_area are the radius-derivatives of area and volume; Cylinder.surface_area adds two caps. Unless said otherwise arithmetic is exact real arithmetic (floating-point rounding is excluded from the claim).", "quantifier": "all radii and lengths", "why_tests_cant": "all reals", "anchors": ["src/skspatial/objects/circle.py:Circle.area", "src/skspatial/objects/circle.py:Circle.circumference", "src/skspatial/objects/sphere.py:Sphere.volume", "src/skspatial/objects/sphere.py:Sphere.surface_area", "src/skspatial/objects/cylinder.py:Cylinder.volume", "src/skspatial/objects/cylinder.py:Cylinder.surface_area"]}
{"id": "C50", "title": "Cylinder.is_point_within decides membership in the solid cylinder", "statement": "is_point_within(p) is True iff p = base + t * axis + w with 0 <= t <= 1, w perpendicular to the axis and |w| <= radius (surface included). Unless said otherwise arithmetic is exact real arithmetic (floating-point rounding is excluded from the claim).", "quantifier": "all cylinders and points", "why_tests_cant": "all reals", "anchors": ["src/skspatial/objects/cylinder.py:Cylinder.is_point_within", "src/skspatial/objects/cylinder.py:_between_cap_planes"]}
{"id": "C51", "title": "Infinite cylinder-line intersection returns exactly the common points", "statement": "Without rounding digits, cylinder.intersect_line(l) returns exactly the points of l at distance radius from the axis line, ordered along l; ValueError iff l is parallel to the axis or misses the infinite surface, or is not 3D. Unless said otherwise arithmetic is exact real arithmetic (floating-point rounding is excluded from the claim).", "quantifier": "all cylinders and 3D lines", "why_tests_cant": "all reals, tangent cases", "anchors": ["src/skspatial/objects/cylinder.py:Cylinder.intersect_line", "src/skspatial/objects/cylinder.py:_intersect_line_with_infinite_cylinder"]}
{"id": "C52", "title": "Finite cylinder-line intersection returns the chord of the solid", "statement": "cylinder.intersect_line(l, infinite=False) returns two points whose segment is exactly the intersection of l with the solid cylinder; ValueError iff that intersection is empty. Unless said otherwise arithmetic is exact real arithmetic (floating-point rounding is excluded from the claim).", "quantifier": "all cylinders and 3D lines", "why_tests_cant": "all reals, rim and tangent cases", "anchors": ["src/skspatial/objects/cylinder.py:_intersect_line_with_finite_cylinder", "src/skspatial/objects/cylinder.py:_intersect_line_with_caps"]}
{"id": "C53", "title": "_solve_quadratic returns exactly the roots, via the public cylinder API", "statement": "For a != 0 and non-negative discriminant the two values are exactly the real roots (smaller first iff a > 0); a = 0 or negative discriminant raise ValueError; n_digits = None and n_digits = 0 both mean no rounding. Unless said otherwise arithmetic is exact real arithmetic (floating-point rounding is excluded from the claim).", "quantifier": "all coefficients and n_digits", "why_tests_cant": "all reals", "anchors": ["src/skspatial/_functions.py:_solve_quadratic"]}
{"id": "C54", "title": "Cylinder.to_mesh lies on the lateral surface between the caps", "statement": "Every mesh point is at distance radius from the axis and its axial coordinate is in [0, length]; both rims are included; never raises for a constructed cylinder. Unless said otherwise arithmetic is exact real arithmetic (floating-point rounding is excluded from the claim).", "quantifier": "all cylinders, all mesh sizes", "why_tests_cant": "all n, all directions", "anchors": ["src/skspatial/objects/cylinder.py:Cylinder.to_mesh"]}
{"id": "C55", "title": "Cylinder.best_fit: best axis and radius for the optimiser's direction; the length is not right", "statement": "For at least six 3D points that are not accepted as coplanar, best_fit returns a cylinder whatever the optimiser answers. The function handed to the optimiser is the least residual sum (rho^2 - r^2)^2 over all cylinders with the given axis direction. The result has the direction the optimiser returns, the unique best axis and radius for that direction (the radius is the root mean square distance to the axis), its base at the lowest point along the axis and a length of twice the height of the centroid; if the optimiser found a global minimum, the result is the best of all cylinders. For points exactly on an infinite cylinder and the true direction, axis and radius are exactly recovered. Defects: the returned cylinder does not contain all points when the centroid is less than half way up (counterexample); the initial direction given to the optimiser is mirrored when y = 0 and x < 0. Unless said otherwise arithmetic is exact real arithmetic (floating-point rounding is excluded from the claim).", "quantifier": "every list of points and every answer of the optimiser", "why_tests_cant": "all lists", "anchors": ["src/skspatial/objects/cylinder.py:Cylinder.best_fit"]}
{"id": "C56", "title": "Triangle normal, area and perimeter", "statement": "area is half the norm of the normal, is independent of the vertex order, satisfies Heron's formula, equals measurement.area_triangle, and is positive for a constructed triangle (exact collinearity check, dimension <= 3); perimeter is the sum of the three vertex distances and exceeds twice any side. Unless said otherwise arithmetic is exact real arithmetic (floating-point rounding is excluded from the claim).", "quantifier": "all triangles", "why_tests_cant": "all reals", "anchors": ["src/skspatial/objects/triangle.py:Triangle.area", "src/skspatial/objects/triangle.py:Triangle.normal", "src/skspatial/objects/triangle.py:Triangle.perimeter", "src/skspatial/measurement.py:area_triangle"]}
{"id": "C57", "title": "Triangle side, vertex and angle naming", "statement": "Side x is opposite vertex X: length('a') = |BC| and so on, line('a') runs from B to C; angle('A') is the Euclidean angle at A; any other name raises ValueError. Unless said otherwise arithmetic is exact real arithmetic (floating-point rounding is excluded from the claim).", "quantifier": "all triangles and all strings", "why_tests_cant": "all strings", "anchors": ["src/skspatial/objects/triangle.py:Triangle.point", "src/skspatial/objects/triangle.py:Triangle.line", "src/skspatial/objects/triangle.py:Triangle.length", "src/skspatial/objects/triangle.py:Triangle.angle"]}
{"id": "C58", "title": "Triangle angles sum to pi", "statement": "For every constructed triangle angle('A') + angle('B') + angle('C') = pi, each in (0, pi), and the argument of acos is in [-1, 1] so no domain error occurs. Unless said otherwise arithmetic is exact real arithmetic (floating-point rounding is excluded from the claim).", "quantifier": "all triangles of all dimensions", "why_tests_cant": "all reals", "anchors": ["src/skspatial/objects/triangle.py:Triangle.angle"]}
{"id": "C59", "title": "Altitudes and orthocenter", "statement": "altitude(X) passes through X and is perpendicular to the opposite side and meets its line; when orthocenter() returns, the point lies on all three altitudes and it is the only one; it returns for every triangle of dimension 2 or 3 whose altitudes are not accepted as parallel; thin triangles do raise (counterexample given). Unless said otherwise arithmetic is exact real arithmetic (floating-point rounding is excluded from the claim).", "quantifier": "all triangles of dimension 2 and 3", "why_tests_cant": "all reals", "anchors": ["src/skspatial/objects/triangle.py:Triangle.altitude", "src/skspatial/objects/triangle.py:Triangle.orthocenter"]}
{"id": "C60", "title": "Triangle.classify", "statement": "With exact comparison (rel_tol = 0) classify is 'equilateral' iff all sides are equal, 'isosceles' iff exactly two are, 'scalene' iff all differ; it is independent of vertex order for every tolerance. With positive tolerance a triangle with two close pairs is called 'scalene' (defect, counterexample given). Unless said otherwise arithmetic is exact real arithmetic (floating-point rounding is excluded from the claim).", "quantifier": "all triangles, all tolerances", "why_tests_cant": "all reals, tolerance boundaries", "anchors": ["src/skspatial/objects/triangle.py:Triangle.classify"]}
{"id": "C61", "title": "Triangle.is_right is Pythagoras", "statement": "With exact comparison is_right iff some angle is pi/2, independent of vertex order. Unless said otherwise arithmetic is exact real arithmetic (floating-point rounding is excluded from the claim).", "quantifier": "all triangles", "why_tests_cant": "all reals", "anchors": ["src/skspatial/objects/triangle.py:Triangle.is_right"]}
{"id": "C62", "title": "Triangle constructor and centroid", "statement": "Triangle(a, b, c) raises ValueError for points of different dimensions and for collinear points; for affinely independent points it raises only if the squared area is below the bound given by NumPy's rank tolerance (max(3, n) * 2^-52 relative to the largest singular value); the order of the vertices does not matter. centroid is (a + b + c) / 3 and is strictly inside the triangle. Unless said otherwise arithmetic is exact real arithmetic (floating-point rounding is excluded from the claim).", "quantifier": "all triples of points", "why_tests_cant": "all reals", "anchors": ["src/skspatial/objects/triangle.py:Triangle.__init__", "src/skspatial/objects/triangle.py:Triangle.centroid"]}
{"id": "C63", "title": "LineSegment constructor", "statement": "LineSegment(a, b) with equal dimensions raises ValueError iff every coordinate pair is close to relative 1e-9; in particular equal endpoints always raise and endpoints of which some coordinate differs by more than 1e-9 relatively never do. Distinct endpoints far from the origin are rejected (counterexample). Unless said otherwise arithmetic is exact real arithmetic (floating-point rounding is excluded from the claim).", "quantifier": "all pairs of points", "why_tests_cant": "all reals", "anchors": ["src/skspatial/objects/line_segment.py:LineSegment.__init__", "src/skspatial/objects/_base_array.py:_BaseArray.is_close"]}
{"id": "C64", "title": "LineSegment.contains_point", "statement": "Every point of the segment is accepted (any tolerances >= 0); with exact comparison only those; with the default tolerances a point is accepted iff it is an endpoint or sees the endpoints under an angle with cosine at most -1 + 1e-9, and such a point is within 1.2e-5 segment lengths of the segment (points that far off are accepted: example). Unless said otherwise arithmetic is exact real arithmetic (floating-point rounding is excluded from the claim).", "quantifier": "all segments and points of all dimensions", "why_tests_cant": "all reals", "anchors": ["src/skspatial/objects/line_segment.py:LineSegment.contains_point"]}
{"id": "C65", "title": "LineSegment.intersect_line_segment", "statement": "When it returns, the point is on the line of the first segment and is accepted by contains_point of both segments, hence within 1.2e-5 segment lengths of each; if the carrying lines meet (always in 2D) it is their only common point. Segments of dimension at most 3 that share a point and whose directions are not accepted as parallel always return it; otherwise ValueError; symmetric in 2D and whenever the carrying lines meet. Unless said otherwise arithmetic is exact real arithmetic (floating-point rounding is excluded from the claim).", "quantifier": "all pairs of segments", "why_tests_cant": "all reals", "anchors": ["src/skspatial/objects/line_segment.py:LineSegment.intersect_line_segment"]}
{"id": "C66", "title": "area_triangle and volume_tetrahedron", "statement": "area_triangle and volume_tetrahedron are invariant under every permutation of their vertices and under translation, scale with the square/cube, are zero exactly for collinear/coplanar vertices, volume_tetrahedron is 1/6 |det|; dimension above 3 raises ValueError. Unless said otherwise arithmetic is exact real arithmetic (floating-point rounding is excluded from the claim).", "quantifier": "all triples / quadruples of points of dimension <= 3", "why_tests_cant": "all reals", "anchors": ["src/skspatial/measurement.py:area_triangle", "src/skspatial/measurement.py:volume_tetrahedron"]}
{"id": "C67", "title": "area_signed is the oriented area", "statement": "area_signed is the shoelace sum; it is invariant under cyclic rotation and translation, changes sign under reversal, scales quadratically, is additive when a polygon is cut along a diagonal, equals the sum of signed areas of a triangle fan, and for a triangle is +-area_triangle with the sign of orientation; fewer than three points or non-2D raise ValueError. Unless said otherwise arithmetic is exact real arithmetic (floating-point rounding is excluded from the claim).", "quantifier": "all polygons with any number of vertices", "why_tests_cant": "all lists", "anchors": ["src/skspatial/measurement.py:area_signed"]}
{"id": "C68", "title": "Memory sharing: rounding works in place, constructors alias the caller's arrays", "statement": "For every history of operations, x.round(n) changes the object x itself to the rounded values (nearest multiples of 10^-n, ties to even; idempotent) and returns an object with those values; every array sharing its memory changes accordingly and no other object changes. Point(x)/Vector(x) of an ndarray is for ever the same memory as x; compound objects keep referring to the arrays they were built from; rows and slices are views; Points(x), to_array() and arithmetic results never share memory with earlier objects. Consequence (defect): after a valid Line is built, writing zero to the caller's array leaves a Line with the zero direction the constructor rejects.", "quantifier": "every sequence of constructor, round, item assignment, in-place addition, indexing, attribute access, arithmetic and copy operations", "why_tests_cant": "aliasing depends on the whole history", "anchors": ["src/skspatial/objects/_base_array.py:_BaseArray.round", "src/skspatial/objects/_base_array.py:_BaseArray.__new__", "src/skspatial/objects/_base_array.py:_BaseArray2D.__new__", "src/skspatial/objects/_base_array.py:_BaseArray.to_array"]}
{"id": "C69", "title": "Typed results are always valid; invalid results degrade to plain arrays", "statement": "Whatever array a NumPy ufunc produces from a Point/Vector/Points, the wrapped result is an object of the class only if it is valid (dimension, non-empty, finite); otherwise it is a plain ndarray with the same values; a scalar result stays a scalar. Values are never changed by wrapping.", "quantifier": "every result array", "why_tests_cant": "infinite input space", "anchors": ["src/skspatial/objects/_base_array.py:_BaseArray.__array_wrap__"]}
{"id": "C70", "title": "plotter dispatch", "statement": "obj.plotter() returns a 2D plotting function iff the object has dimension 2 and a plot_2d method, a 3D one iff it has dimension 3 and a plot_3d method, and raises ValueError otherwise; LineSegment has no dimension attribute so plotter raises AttributeError (defect).", "quantifier": "every object of every class and dimension", "why_tests_cant": "all dimensions", "anchors": ["src/skspatial/objects/_base_spatial.py:_PlotterMixin.plotter"]}
{"id": "C71", "title": "array is_close / is_equal", "statement": "a.is_close(b) holds iff every pair of coordinates satisfies math.isclose; it is reflexive and symmetric, implied by is_equal (same shape), equals exact equality for zero tolerances, and monotone in both tolerances; is_equal is False for different shapes rather than an error.", "quantifier": "all arrays and tolerances", "why_tests_cant": "all reals", "anchors": ["src/skspatial/objects/_base_array.py:_BaseArray.is_close", "src/skspatial/objects/_base_array.py:_BaseArray.is_equal", "src/skspatial/_functions.py:_allclose"]}
{"id": "C72", "title": "What is drawn", "statement": "Plotting an object draws the object: a Point or Points at their coordinates, a Vector from its tail to tail + scalar * v, a Line as the segment between its points at t_1 and t_2, a LineSegment between its endpoints, a Circle with its centre and radius, a Triangle as its vertices or its three sides, a Plane, Sphere or Cylinder as a surface all of whose mesh points lie on the object. plot_2d(*plotters) / plot_3d(*plotters) call the plotters in order on the same new axes. 3D plot methods raise on axes that are not 3D. An unknown `part` of a triangle silently draws nothing. plot_2d called directly on a higher-dimensional object draws its projection to the first two coordinates. Unless said otherwise arithmetic is exact real arithmetic (floating-point rounding is excluded from the claim).", "quantifier": "every object of every plottable class, every parameter value", "why_tests_cant": "all objects and parameters", "anchors": ["src/skspatial/plotting.py:_scatter_2d", "src/skspatial/plotting.py:_connect_points_2d", "src/skspatial/plotting.py:_connect_points_3d", "src/skspatial/plotting.py:_plot", "src/skspatial/objects/line.py:Line.plot_2d", "src/skspatial/objects/triangle.py:Triangle.plot_3d", "src/skspatial/objects/cylinder.py:Cylinder.plot_3d"]}
{"id": "C73", "title": "Rounded lengths, distances and zero tests", "statement": "Under rounding, Vector.norm and Point.distance_point have a relative error of at most about (n+3)/2 resp. (n+5)/2 units u; is_zero() with the default tolerance is right exactly for the zero vector and so constructors of Line and Plane reject exactly the zero vector; with gradual underflow this is lost: tiny non-zero vectors are treated as zero (defect). Floating point: every arithmetic result is rounded with relative error at most u (IEEE binary64: u = 2^-53, no underflow or overflow); sums and dot products are evaluated in any order, with or without fused multiply-add; inputs are arbitrary.", "quantifier": "all points of all dimensions and all roundings", "why_tests_cant": "floating-point errors depend on every input and on the rounding of every intermediate result", "anchors": ["src/skspatial/objects/vector.py:Vector.norm", "src/skspatial/objects/vector.py:Vector.is_zero", "src/skspatial/objects/point.py:Point.distance_point"]}
{"id": "C74", "title": "Rounded operations keep their exact symmetries", "statement": "Under any rounding that is odd (fl(-x) = -fl(x)), not only approximately but bit for bit: cosine_similarity, angle_between, is_perpendicular and is_parallel are symmetric (for every rounding, whenever the dot product depends on the products of the coordinates only, as with any fixed order of the additions, with or without fused multiply-add), distance_point is symmetric, and cross products are anticommutative. Floating point: every arithmetic result is rounded with relative error at most u (IEEE binary64: u = 2^-53, no underflow or overflow); sums and dot products are evaluated in any order, with or without fused multiply-add; inputs are arbitrary.", "quantifier": "all vectors and all odd roundings", "why_tests_cant": "floating-point errors depend on every input and on the rounding of every intermediate result", "anchors": ["src/skspatial/objects/vector.py:Vector.cross", "src/skspatial/objects/point.py:Point.distance_point", "src/skspatial/objects/vector.py:Vector.dot"]}
{"id": "C75", "title": "side_vector under rounding", "statement": "In 2D, side_vector under every monotone rounding never reports the wrong side: it is +-1 only if the exact sign is the same, and 0 only if the exact cross product is tiny relative to the products it is the difference of. Floating point: every arithmetic result is rounded with relative error at most u (IEEE binary64: u = 2^-53, no underflow or overflow); sums and dot products are evaluated in any order, with or without fused multiply-add; inputs are arbitrary.", "quantifier": "all pairs of 2D vectors", "why_tests_cant": "floating-point errors depend on every input and on the rounding of every intermediate result", "anchors": ["src/skspatial/objects/vector.py:Vector.side_vector"]}
{"id": "C76", "title": "unit under rounding", "statement": "Every coordinate of v.unit() computed with rounding has relative error about (n+5)/2 units u and the same sign; its length is 1 up to the same relative error. Floating point: every arithmetic result is rounded with relative error at most u (IEEE binary64: u = 2^-53, no underflow or overflow); sums and dot products are evaluated in any order, with or without fused multiply-add; inputs are arbitrary.", "quantifier": "all non-zero vectors", "why_tests_cant": "floating-point errors depend on every input and on the rounding of every intermediate result", "anchors": ["src/skspatial/objects/vector.py:Vector.unit"]}
{"id": "C77", "title": "Cosine and parallelism under rounding", "statement": "cosine_similarity under rounding is within about (2n+6) u of the exact cosine and within [-1, 1]; is_parallel with default tolerances accepts, despite rounding, all vectors with |cos| >= 1 - 5e-10 (in particular all exactly parallel ones) and rejects all with |cos| < 1 - 1.5e-9. Floating point: every arithmetic result is rounded with relative error at most u (IEEE binary64: u = 2^-53, no underflow or overflow); sums and dot products are evaluated in any order, with or without fused multiply-add; inputs are arbitrary.", "quantifier": "all pairs of non-zero vectors", "why_tests_cant": "floating-point errors depend on every input and on the rounding of every intermediate result", "anchors": ["src/skspatial/objects/vector.py:Vector.cosine_similarity", "src/skspatial/objects/vector.py:Vector.is_parallel"]}
{"id": "C78", "title": "Distances and projections under rounding", "statement": "Under rounding the distance of a point x from a plane is off by at most about (3n+9)/2 u times the distance from x to the plane's point (so side_point is right beyond that); line.project_point is off by at most u |p| plus about (2n+6) u times the distance of x from the line's point p; line.distance_point accordingly; the distance to a circle or sphere is off by at most about (n+7)/2 u (dist + r). Floating point: every arithmetic result is rounded with relative error at most u (IEEE binary64: u = 2^-53, no underflow or overflow); sums and dot products are evaluated in any order, with or without fused multiply-add; inputs are arbitrary.", "quantifier": "all planes, lines, circles, spheres and points", "why_tests_cant": "floating-point errors depend on every input and on the rounding of every intermediate result", "anchors": ["src/skspatial/objects/plane.py:Plane.distance_point_signed", "src/skspatial/objects/line.py:Line.project_point", "src/skspatial/objects/circle.py:Circle.distance_point", "src/skspatial/objects/sphere.py:Sphere.distance_point"]}
{"id": "C79", "title": "How large abs_tol of contains_point must be", "statement": "plane.contains_point(x, abs_tol=s) under rounding accepts every exact point of the plane as soon as s exceeds the rounding bound (about (3n+9)/2 u times the distance from x to the plane's point), and never accepts a point whose distance exceeds s by more than that bound; likewise circle and sphere with (n+7)/2 u (dist + r), and line with u |p| + (2n+6) u dist(x, p) for the point p of the line. Floating point: every arithmetic result is rounded with relative error at most u (IEEE binary64: u = 2^-53, no underflow or overflow); sums and dot products are evaluated in any order, with or without fused multiply-add; inputs are arbitrary.", "quantifier": "all lines, planes, circles, spheres, points and tolerances", "why_tests_cant": "floating-point errors depend on every input and on the rounding of every intermediate result", "anchors": ["src/skspatial/objects/_base_line_plane.py:_BaseLinePlane.contains_point", "src/skspatial/objects/_base_sphere.py:_BaseSphere.contains_point"]}
{"id": "C80", "title": "classify and is_right under rounding", "statement": "With the default tolerances and despite rounding (dimension up to about 800000 in binary64): classify returns 'equilateral' if all sides agree to a relative 7e-10, 'isosceles' if exactly one pair does and the others differ by more than 1.3e-9, 'scalene' if all differ by more than 1.3e-9; so triangles with exactly equal sides are recognised. is_right is True for every exactly right-angled triangle, and only if p^2 + q^2 = r^2 holds to a relative 1.3e-9 for the sides in some order. Floating point: every arithmetic result is rounded with relative error at most u (IEEE binary64: u = 2^-53, no underflow or overflow); sums and dot products are evaluated in any order, with or without fused multiply-add; inputs are arbitrary.", "quantifier": "all triangles (of distinct vertices) of all dimensions, all roundings", "why_tests_cant": "floating-point errors depend on every input and on the rounding of every intermediate result", "anchors": ["src/skspatial/objects/triangle.py:Triangle.classify", "src/skspatial/objects/triangle.py:Triangle.is_right"]}
{"id": "C81", "title": "LineSegment under rounding", "statement": "Despite rounding, segment.contains_point(x) with the default tolerances is True for every exact point of the segment, and only within 1.3e-5 segment lengths of it; the constructor raises if all coordinate pairs agree to a relative 9e-10 and succeeds if one differs by more than 1.1e-9. Floating point: every arithmetic result is rounded with relative error at most u (IEEE binary64: u = 2^-53, no underflow or overflow); sums and dot products are evaluated in any order, with or without fused multiply-add; inputs are arbitrary.", "quantifier": "all segments and points of all dimensions, all roundings", "why_tests_cant": "floating-point errors depend on every input and on the rounding of every intermediate result", "anchors": ["src/skspatial/objects/line_segment.py:LineSegment.contains_point", "src/skspatial/objects/line_segment.py:LineSegment.__init__"]}
{"id": "C82", "title": "Vector.norm(ord=...)", "statement": "v.norm() and v.norm(ord=2) are the Euclidean norm; v.norm(ord=p) is the l^p norm for every real p >= 1 (ord=1: the sum of the absolute coordinates), ord=np.inf the largest and ord=-np.inf the smallest absolute coordinate, ord=0 the number of non-zero coordinates. For ord=np.inf and p >= 1 it is a norm (zero only for the zero vector, homogeneous, triangle inequality); norm(ord=inf) <= norm() <= norm(ord=1). Unless said otherwise arithmetic is exact real arithmetic (floating-point rounding is excluded from the claim).", "quantifier": "all vectors of all dimensions, all orders p >= 1, infinities and 0", "why_tests_cant": "all reals", "anchors": ["src/skspatial/objects/vector.py:Vector.norm"]}
{"id": "C83", "title": "Zero tests and constructors on integer arrays", "statement": "For an integer vector is_zero() is True iff the sum of the squared coordinates is a multiple of 2^64, and the Line and Plane constructors raise the zero-vector error exactly then; so they are right for all vectors whose sum of squares is below 2^64 (e.g. coordinates below 2^30 in up to 8 dimensions). Vector.norm is exact for all. Defect: Vector([2**32, 0]).is_zero() is True and Line([0, 0], [2**32, 0]) raises. Integer arrays are int64 arrays: products, sums and differences wrap modulo 2^64 silently.", "quantifier": "all integer vectors of all dimensions", "why_tests_cant": "only huge coordinates show it; all integers", "anchors": ["src/skspatial/objects/vector.py:Vector.is_zero", "src/skspatial/objects/_base_line_plane.py:_BaseLinePlane.__init__", "src/skspatial/objects/vector.py:Vector.norm"]}
{"id": "C84", "title": "Dot products and angles of integer arrays", "statement": "dot of integer vectors is the exact value reduced to [-2^63, 2^63), exact iff that fits; then cosine_similarity and angle_between are the exact ones; is_perpendicular is True iff the exact dot product is a multiple of 2^64; is_parallel agrees with exact arithmetic if both sums of squares are below 2^63. angle_signed uses the exact determinant and the wrapped dot product. Defect: the angle between [2**32, 0] and [2**31, 0] is computed as pi, and [2**32, 0] is 'parallel' to [0, 1]. Integer arrays are int64 arrays: products, sums and differences wrap modulo 2^64 silently.", "quantifier": "all pairs of integer vectors of all dimensions", "why_tests_cant": "only huge coordinates show it; all integers", "anchors": ["src/skspatial/objects/vector.py:Vector.dot", "src/skspatial/objects/vector.py:Vector.angle_between", "src/skspatial/objects/vector.py:Vector.is_perpendicular", "src/skspatial/objects/vector.py:Vector.is_parallel"]}
{"id": "C85", "title": "Distances, cross products, areas and projections of integer arrays", "statement": "distance_point of integer points is exact if the coordinate differences fit in 64 bits; cross is exact modulo 2^64, side_vector is the sign of the wrapped value and right if it fits; area_triangle, area_signed likewise (area_signed as soon as the total fits); line.project_point is that of exact arithmetic if the differences and the two dot products fit, plane.distance_point_signed if the differences fit. Defects: furthest int64 points at distance 1, wrong side, area 0 for a big triangle, negative volume_tetrahedron. Integer arrays are int64 arrays: products, sums and differences wrap modulo 2^64 silently.", "quantifier": "all integer points, lines, planes, polygons", "why_tests_cant": "only huge coordinates show it; all integers", "anchors": ["src/skspatial/objects/point.py:Point.distance_point", "src/skspatial/objects/vector.py:Vector.cross", "src/skspatial/objects/vector.py:Vector.side_vector", "src/skspatial/measurement.py:area_triangle", "src/skspatial/measurement.py:volume_tetrahedron", "src/skspatial/measurement.py:area_signed", "src/skspatial/objects/line.py:Line.project_point", "src/skspatial/objects/plane.py:Plane.distance_point_signed"]}
{"id": "C86", "title": "repr determines the object", "statement": "repr(obj) begins with the class name and a parenthesis, and two objects (of any of the ten classes) have the same repr iff they are of the same class and corresponding parts (arrays, radius) are printed alike; this holds for every array and number format in which the text of an array is its class name and one pair of parentheses. With NumPy's format of integer arrays, objects with integer coordinates have the same repr iff they are equal.", "quantifier": "all pairs of objects of all classes and dimensions", "why_tests_cant": "all objects", "anchors": ["src/skspatial/objects/_base_line_plane.py:_BaseLinePlane.__repr__", "src/skspatial/objects/_base_sphere.py:_BaseSphere.__repr__", "src/skspatial/objects/cylinder.py:Cylinder.__repr__", "src/skspatial/objects/triangle.py:Triangle.__repr__", "src/skspatial/objects/line_segment.py:LineSegment.__repr__"]}
{"id": "C87", "title": "Memory of computed results", "statement": "A method that computes a new array (unit, project_point, from_points, ...) returns an array that shares memory with no earlier object and changes none, however its arguments overlap. L = Line.from_points(a, b): L.point is the array a itself for ever, L.direction is private, so later writes to b never move the line but writes to a do. triangle.line(side).point is the triangle's own vertex. plane.project_line(line) returns a line with private arrays, except (defect) when line is parallel to the plane: then the direction of the result is the direction array of the original line, and writing to one changes the other. It raises exactly when the computation with immutable values does, and then changes nothing.", "quantifier": "all histories of operations, all arrays, lines, planes and triangles", "why_tests_cant": "all histories of aliasing and mutation", "anchors": ["src/skspatial/objects/line.py:Line.from_points", "src/skspatial/objects/plane.py:Plane.project_line", "src/skspatial/objects/triangle.py:Triangle.line", "src/skspatial/objects/vector.py:Vector.from_points", "src/skspatial/objects/_base_array.py:_BaseArray.__new__"]}
{"id": "C88", "title": "Failures in binary64", "statement": "In IEEE binary64 with the default tolerances the following can fail, contrary to exact arithmetic (concrete witnesses refute the universal claims): a point projected onto a line, plane or circle is contained in it (line through the origin along (1, 3) and (0, 1); plane through the origin with normal (1, 2, 0) and (0, 1, 0); unit circle and (1, 1)); triangle.angle returns (Triangle([0, 0], [4118, 33], [9983, 80]).angle('A') raises 'math domain error', whatever numpy's rank computation, as long as the triangle is accepted); a cylinder contains the centre of its own top cap (base (0, 0, 0), axis (0, 1, 5)).", "quantifier": "universal claims over all inputs, refuted by witnesses; for the triangle, all external rank computations", "why_tests_cant": "a passing test on other inputs says nothing; the model is evaluated exactly with every operation rounded", "anchors": ["src/skspatial/objects/line.py:Line.project_point", "src/skspatial/objects/_base_line_plane.py:_BaseLinePlane.contains_point", "src/skspatial/objects/plane.py:Plane.project_point", "src/skspatial/objects/_base_sphere.py:_BaseSphere.project_point", "src/skspatial/objects/triangle.py:Triangle.angle", "src/skspatial/objects/cylinder.py:Cylinder.is_point_within"]}
{"id": "C89", "title": "Projecting and then testing containment under rounding", "statement": "Under rounding obj.contains_point(obj.project_point(x), abs_tol=s) is True as soon as s is at least: u (5 |p| + (10 n + 30) dist(x, p)) for a line through p; u (3 |x| + (8 n + 24) dist(x, p)) for a plane through p; u (3 |c| + 64 r) for a circle and u (3 |c| + 68 r) for a sphere with center c and radius r (x not the center). Floating point: every arithmetic result is rounded with relative error at most u (IEEE binary64: u = 2^-53, no underflow or overflow); sums and dot products are evaluated in any order, with or without fused multiply-add; inputs are arbitrary.", "quantifier": "all lines, planes, circles, spheres and points, all tolerances above the bound, all roundings", "why_tests_cant": "floating-point errors depend on every input and on the rounding of every intermediate result", "anchors": ["src/skspatial/objects/line.py:Line.project_point", "src/skspatial/objects/plane.py:Plane.project_point", "src/skspatial/objects/_base_sphere.py:_BaseSphere.project_point", "src/skspatial/objects/_base_line_plane.py:_BaseLinePlane.contains_point", "src/skspatial/objects/_base_sphere.py:_BaseSphere.contains_point"]}
{"id": "C90", "title": "Rounding error of angles", "statement": "Under rounding v.angle_between(w) of non-zero vectors never raises and is within pi (sqrt(d / 2) + u) of the exact angle, d = (1-u)^-(2n+6) - 1. triangle.angle(vertex) of a triangle with distinct vertices either raises 'math domain error' or is within pi (sqrt(k d / 2) + u) of the exact angle, d = (1-u)^-(2n+16) - 1 and k = (a^2 + b^2 + c^2) / (2 b c) for the sides b, c at the vertex; it returns whenever |cos| + k d <= 1. Floating point: every arithmetic result is rounded with relative error at most u (IEEE binary64: u = 2^-53, no underflow or overflow); sums and dot products are evaluated in any order, with or without fused multiply-add; inputs are arbitrary.", "quantifier": "all vectors and triangles of all dimensions, all roundings", "why_tests_cant": "floating-point errors depend on every input and on the rounding of every intermediate result", "anchors": ["src/skspatial/objects/vector.py:Vector.angle_between", "src/skspatial/objects/triangle.py:Triangle.angle"]}
{"id": "C91", "title": "Rounding error of cross products, areas, volumes and centroids", "statement": "Under rounding (points of dimension at most 3): v.cross(w) is within sqrt(2) ((1-u)^-2 - 1) |v| |w| of the exact vector; area_triangle(a, b, c) within ((1-u)^-9 - 1) |ab| |ac| / sqrt(2) of the exact area; volume_tetrahedron(a, b, c, d) within sqrt(2)/6 ((1-u)^-11 - 1) |ab| |ac| |ad|; area_signed of m vertices within ((1-u)^-(m+4) - 1) times half the sum of |x_(i-1) y_i| + |x_i y_(i-1)|; every coordinate of the centroid of N points within ((1-u)^-(N+1) - 1) times the mean absolute value of that coordinate. Floating point: every arithmetic result is rounded with relative error at most u (IEEE binary64: u = 2^-53, no underflow or overflow); sums and dot products are evaluated in any order, with or without fused multiply-add; inputs are arbitrary.", "quantifier": "all points, polygons, point lists of all lengths, all roundings", "why_tests_cant": "floating-point errors depend on every input and on the rounding of every intermediate result", "anchors": ["src/skspatial/objects/vector.py:Vector.cross", "src/skspatial/measurement.py:area_triangle", "src/skspatial/measurement.py:volume_tetrahedron", "src/skspatial/measurement.py:area_signed", "src/skspatial/objects/points.py:Points.centroid"]}
{"id": "C92", "title": "Rounding error of perimeters, circumferences, surface areas and volumes", "statement": "Under rounding the following have a small relative error ((1-u)^k x <= computed <= x / (1-u)^k for the exact value x): triangle.perimeter (k = (n+11)/2), circle.circumference and circle.area (k = 3), sphere.surface_area (4) and volume (6), cylinder.length (3), lateral_surface_area (7), surface_area (8), volume (7). Floating point: every arithmetic result is rounded with relative error at most u (IEEE binary64: u = 2^-53, no underflow or overflow); sums and dot products are evaluated in any order, with or without fused multiply-add; inputs are arbitrary.", "quantifier": "all triangles (of distinct vertices), circles, spheres and cylinders, all roundings", "why_tests_cant": "floating-point errors depend on every input and on the rounding of every intermediate result", "anchors": ["src/skspatial/objects/triangle.py:Triangle.perimeter", "src/skspatial/objects/circle.py:Circle.area", "src/skspatial/objects/circle.py:Circle.circumference", "src/skspatial/objects/sphere.py:Sphere.surface_area", "src/skspatial/objects/sphere.py:Sphere.volume", "src/skspatial/objects/cylinder.py:Cylinder.length", "src/skspatial/objects/cylinder.py:Cylinder.surface_area", "src/skspatial/objects/cylinder.py:Cylinder.volume"]}
{"id": "C93", "title": "cylinder.is_point_within under rounding", "statement": "Let eta = u (3 |p| + 51 dist(x, p) + 6 |v|) for the cylinder with base center p and axis v. Under rounding cylinder.is_point_within(x) never raises; it is True if the whole ball of radius eta around x lies in the solid cylinder, and True only if x is within eta of the solid cylinder. (Exactly on the boundary it can be wrong, see the binary64 failures.) Floating point: every arithmetic result is rounded with relative error at most u (IEEE binary64: u = 2^-53, no underflow or overflow); sums and dot products are evaluated in any order, with or without fused multiply-add; inputs are arbitrary.", "quantifier": "all cylinders, all points, all roundings", "why_tests_cant": "floating-point errors depend on every input and on the rounding of every intermediate result", "anchors": ["src/skspatial/objects/cylinder.py:Cylinder.is_point_within"]}
{"id": "C94", "title": "plane.intersect_line under rounding", "statement": "Let k = 1/|cos| for the angle between the normal m of the plane through p and the direction d of the line through q, and W = dist(q, p). If 4 (n+2) u k <= 1, plane.intersect_line(line) returns a point within u (2 |q| + (8n+32) k^2 W) of the exact intersection point, within u (2 |q| + (8n+32) k W) of the plane and within u (2 |q| + 20 k W) of the line. Floating point: every arithmetic result is rounded with relative error at most u (IEEE binary64: u = 2^-53, no underflow or overflow); sums and dot products are evaluated in any order, with or without fused multiply-add; inputs are arbitrary.", "quantifier": "all planes and lines of all dimensions that are not parallel up to rounding", "why_tests_cant": "floating-point errors depend on every input and on the rounding of every intermediate result", "anchors": ["src/skspatial/objects/plane.py:Plane.intersect_line"]}
{"id": "C95", "title": "Rounding error of projections, coordinates and normalisation", "statement": "Under rounding: v.project_vector(w) is within ((1-u)^-(2n+4) - 1) |w| of the exact projection; v.scalar_projection(w) within ((1-u)^-((3n+7)/2) - 1) |w|; the coordinates returned by transform_coordinates along a basis vector b are within ((1-u)^-(n+2) - 1) dist(x, o) |b| of the exact ones; line.transform_points within ((1-u)^-((3n+9)/2) - 1) dist(x, p); normalize_distance of points that are not all zero returns every coordinate with a relative error of at most (1-u)^-((n+5)/2) - 1, no point further than (1-u)^-((n+5)/2) and one at least (1-u)^((n+5)/2) from the origin. Floating point: every arithmetic result is rounded with relative error at most u (IEEE binary64: u = 2^-53, no underflow or overflow); sums and dot products are evaluated in any order, with or without fused multiply-add; inputs are arbitrary.", "quantifier": "all vectors, lines, bases and point lists of all lengths and dimensions, all roundings", "why_tests_cant": "floating-point errors depend on every input and on the rounding of every intermediate result", "anchors": ["src/skspatial/objects/vector.py:Vector.project_vector", "src/skspatial/objects/vector.py:Vector.scalar_projection", "src/skspatial/transformation.py:transform_coordinates", "src/skspatial/objects/line.py:Line.transform_points", "src/skspatial/objects/points.py:Points.normalize_distance"]}
{"id": "C96", "title": "binary64 runs agree with unbounded-exponent rounding for moderate coordinates", "statement": "If all coordinates, radii and tolerances are binary64 numbers that are zero or of magnitude between 2^-50 and 2^50 (about 1e-15 to 1e15), then no operation inside the following underflows or overflows, so they return (or raise) exactly what they do with 53-bit rounding and unbounded exponents, and all error bounds of the rounding properties hold for binary64: norm, dot, from_points, distance_point, unit, scalar_projection, project_vector, is_zero, is_perpendicular, cosine_similarity, angle_between, is_parallel; the Line and Plane constructors (accept exactly the non-zero vectors), side_vector; line and plane project_point, distance_point, side_point, contains_point, plane.intersect_line; circle and sphere constructors, distance_point, project_point, contains_point, sphere.intersect_line; cylinder.is_point_within; cross, area_triangle, volume_tetrahedron; circumference, areas and volumes. In particular norms, distances, projections and is_point_within have the stated relative errors with u = 2^-53. Arithmetic: IEEE 754 binary64, round to nearest even, with gradual underflow, overflow to infinities and NaN (one zero).", "quantifier": "all moderate binary64 inputs, all dimensions up to 2^53", "why_tests_cant": "all floats in the range; intermediate results can be far outside the input range", "anchors": ["src/skspatial/objects/vector.py:Vector.norm", "src/skspatial/objects/vector.py:Vector.angle_between", "src/skspatial/objects/line.py:Line.project_point", "src/skspatial/objects/plane.py:Plane.project_point", "src/skspatial/objects/plane.py:Plane.intersect_line", "src/skspatial/objects/sphere.py:Sphere.intersect_line", "src/skspatial/objects/cylinder.py:Cylinder.is_point_within", "src/skspatial/measurement.py:volume_tetrahedron"]}
{"id": "C97", "title": "Overflow and underflow in binary64", "statement": "Defects outside that range, for every such input: if a finite vector v has a coordinate of magnitude at least 2^512 (about 1.3e154), v.norm() is inf, v.unit() is silently the zero vector, v.cosine_similarity(v) and v.angle_between(v) are NaN, v.is_parallel(w) is False for every w that is not taken for zero, itself included; Line and Plane accept v, but a plane with normal v contains every point (all signed distances 0, side_point 0), and projecting any point onto a line with direction v (coordinates up to 2^900) gives the point the line was built from; for the line through the origin with direction v and the point v, which is on it, project_point is all NaN and distance_point, contains_point and sum_squares raise AttributeError. If all coordinates of v are at most 2^-538 (about 1.1e-162), norm is 0, is_zero is True, unit raises, Line and Plane raise, and v is parallel to everything. Arithmetic: IEEE 754 binary64, round to nearest even, with gradual underflow, overflow to infinities and NaN (one zero).", "quantifier": "all finite vectors with a huge coordinate, all tiny vectors, all moderate points, all dimensions", "why_tests_cant": "all floats of a range no test samples", "anchors": ["src/skspatial/objects/vector.py:Vector.unit", "src/skspatial/objects/vector.py:Vector.is_parallel", "src/skspatial/objects/_base_line_plane.py:_BaseLinePlane.__init__", "src/skspatial/objects/plane.py:Plane.distance_point_signed", "src/skspatial/objects/line.py:Line.project_point"]}
{"id": "C98", "title": "The order of additions in sums and dot products", "statement": "NumPy and BLAS may add in any order and fuse products with additions. Whatever the order, all error bounds of the rounding properties hold (each term of a sum of n numbers is perturbed by at most n relative errors, of a dot product by at most n + 1); distances computed in two orders agree to n + 5 relative errors; is_zero and the Line and Plane constructors give the same result in every order. Defect: is_perpendicular does depend on the order; for (2^53, 1, -2^53) and (1, 1, 1), whose dot product is 1, it is True when binary64 adds from left to right and False from right to left. Floating point: every arithmetic result is rounded with relative error at most u (IEEE binary64: u = 2^-53, no underflow or overflow); sums and dot products are evaluated in any order, with or without fused multiply-add; inputs are arbitrary.", "quantifier": "all trees of additions over all permutations of the terms, all vectors of all dimensions, all roundings", "why_tests_cant": "the order is chosen by the NumPy build and the CPU, not by the test", "anchors": ["src/skspatial/objects/vector.py:Vector.norm", "src/skspatial/objects/vector.py:Vector.is_perpendicular", "src/skspatial/objects/point.py:Point.distance_point", "src/skspatial/objects/_base_line_plane.py:_BaseLinePlane.__init__"]}
{"id": "C99", "title": "Operands of different dimensions", "statement": "dot-based methods (dot, is_perpendicular, project_vector, scalar_projection, cosine_similarity, angle_between, angle_signed, side_vector) raise ValueError for vectors of different dimensions, even when one is one-dimensional; is_parallel then returns only True, and only because a vector is zero for the tolerance. Differences of points (Vector.from_points, distance_point, Line.from_points, Cylinder.from_points, LineSegment) raise unless a dimension is 1. A line or plane raises for a point whose dimension is neither its own nor 1 (project_point, distance_point, side_point, contains_point, sum_squares, the batch methods, transform_points); two lines, two planes, or a plane and a line of different dimensions raise in every method (default tolerance; line.is_close may raise AttributeError instead of ValueError, only if the argument is one-dimensional and a number overflows); circles, spheres and cylinders likewise, Triangle, Plane.from_points, Circle.from_points and the constructors reject mismatching dimensions; empty or ragged lists of points raise everywhere. Defects: a point [x] of dimension 1 is silently taken for [x, ..., x]; circle.intersect_line takes a one-dimensional line for the diagonal of the plane, so all points it returns have two equal coordinates.", "quantifier": "all arrays of all lengths, all objects, all tolerances, every arithmetic (exact, rounded, with NaN, integers)", "why_tests_cant": "all combinations of dimensions and values", "anchors": ["src/skspatial/objects/vector.py:Vector.is_perpendicular", "src/skspatial/objects/vector.py:Vector.is_parallel", "src/skspatial/objects/line.py:Line.project_point", "src/skspatial/objects/line.py:Line.distance_line", "src/skspatial/objects/plane.py:Plane.intersect_line", "src/skspatial/objects/circle.py:Circle.intersect_line", "src/skspatial/objects/triangle.py:Triangle.__init__", "src/skspatial/objects/_base_line_plane.py:_BaseLinePlane.__init__"]}
{"id": "C100", "title": "Which exceptions can be raised", "statement": "Given arguments of the documented types, every constructor and method of Point, Vector, Points, Line, Plane, Circle, Sphere, Cylinder, LineSegment, Triangle, and the functions of measurement and transformation, either return or raise ValueError. The only other exceptions are: TypeError from is_close of a line or plane, and from line.is_coplanar, exactly when the argument has another type; IndexError from Plane.best_fit, only with full_matrices=False and fewer than three points; whatever np.linalg.solve raises inside plane.intersect_plane; and AttributeError from line.distance_point, contains_point, sum_squares, is_close and distance_line and from Cylinder.best_fit and cylinder.is_point_within, intersect_line, to_mesh and to_points, which never happens in arithmetic without overflow, and in line.distance_point exactly when the computed projection has a value that is not finite. (For OverflowError of ** on a huge Python float radius see its own property.)", "quantifier": "all inputs, every arithmetic (exact, rounded, with NaN and infinities, integers), every behaviour of the external routines", "why_tests_cant": "all inputs; a caller that writes 'except ValueError' relies on it", "anchors": ["src/skspatial/objects/_base_array.py:_BaseArray.__new__", "src/skspatial/objects/_base_line_plane.py:_BaseLinePlane.is_close", "src/skspatial/objects/line.py:Line.is_coplanar", "src/skspatial/objects/plane.py:Plane.intersect_plane", "src/skspatial/objects/cylinder.py:Cylinder.best_fit", "src/skspatial/objects/cylinder.py:Cylinder.intersect_line"]}
{"id": "C101", "title": "Results do not depend on the choice of coordinates", "statement": "Move all arguments by the same similarity (any rotation or reflection, followed by uniform scaling by c > 0 and a shift): every method returns the moved result, or raises ValueError in both coordinate systems. Points (projections, intersections, centroids, orthocenters, feet of altitudes) move along, lengths and distances scale by c, areas and sums of squares by c^2, volumes by c^3; angles, cosines, predicates (is_parallel, is_perpendicular, contains_point with abs_tol scaled, is_coplanar, are_collinear, is_point_within, classify, is_right, ...), ranks and the acceptance of a Triangle do not change; signed areas and 2D sides change sign under reflections; the cross product moves up to c and the sign of the reflection; best-fit lines and planes pass through the moved centroid and their squared error scales by c^2. (The LineSegment constructor is not shift invariant, see its property.) Unless said otherwise arithmetic is exact real arithmetic (floating-point rounding is excluded from the claim).", "quantifier": "all similarities of all dimensions, all objects, points, tolerances (absolute tolerances scaled)", "why_tests_cant": "all rotations, scales and shifts", "anchors": ["src/skspatial/objects/line.py:Line", "src/skspatial/objects/plane.py:Plane", "src/skspatial/objects/circle.py:Circle", "src/skspatial/objects/sphere.py:Sphere", "src/skspatial/objects/cylinder.py:Cylinder", "src/skspatial/objects/triangle.py:Triangle", "src/skspatial/objects/line_segment.py:LineSegment", "src/skspatial/objects/points.py:Points.affine_rank", "src/skspatial/measurement.py:area_signed"]}
{"id": "C102", "title": "Results depend on the set of points, not on its description", "statement": "Two Line (Plane, Cylinder, LineSegment) objects that describe the same set of points -- another point of the line, a multiple of the direction or normal, base and top or endpoints exchanged -- give the same results: project_point(s), distance_point(s), contains_point and is_point_within for every tolerance, sum_squares, is_close, project_vector, intersect_line, intersect_plane, project_line (as sets), or raise ValueError in both descriptions. Only the sense of the vector shows: the side of a point and the signed distance change sign with it, the two points of sphere.intersect_line and of an infinite cylinder are exchanged. Line.distance_line does not depend on the description if the lines are exactly parallel, meet, or are accepted neither as parallel nor as coplanar. Defect: for nearly parallel lines distance_line and is_close do depend on it; the same line given by another of its points is at distance 1 or 0, close or not close. Unless said otherwise arithmetic is exact real arithmetic (floating-point rounding is excluded from the claim).", "quantifier": "all pairs of descriptions of all lines, planes, segments, cylinders of all dimensions, all points, all tolerances (abs_tol = 0 where directions are compared)", "why_tests_cant": "all descriptions of a set", "anchors": ["src/skspatial/objects/line.py:Line.project_point", "src/skspatial/objects/line.py:Line.intersect_line", "src/skspatial/objects/line.py:Line.distance_line", "src/skspatial/objects/plane.py:Plane.project_point", "src/skspatial/objects/plane.py:Plane.intersect_plane", "src/skspatial/objects/_base_line_plane.py:_BaseLinePlane.is_close", "src/skspatial/objects/cylinder.py:Cylinder.intersect_line", "src/skspatial/objects/line_segment.py:LineSegment.intersect_line_segment"]}
{"id": "C103", "title": "The order of points and of the two objects does not matter", "statement": "Points.unique, affine_rank, are_concurrent, are_collinear and are_coplanar depend only on the set of points, not on order or repetitions; this holds bit for bit in floating point with any rounding. centroid, the point and the error of Line.best_fit and Plane.best_fit, Circle.best_fit and Sphere.best_fit of well conditioned points, Circle.from_points, the set of Plane.from_points and Triangle.orthocenter do not depend on the order of the points. circle.intersect_circle and plane.intersect_plane are symmetric. Defects: is_close and distance_line of nearly parallel lines are not symmetric (close / not close, distance 0 / not 0); in binary64 the centroid depends on the order of the points. Unless said otherwise arithmetic is exact real arithmetic (floating-point rounding is excluded from the claim).", "quantifier": "all lists of points and all their permutations, all pairs of circles and planes, all tolerances", "why_tests_cant": "all permutations of all lists", "anchors": ["src/skspatial/objects/points.py:Points.unique", "src/skspatial/objects/points.py:Points.affine_rank", "src/skspatial/objects/points.py:Points.centroid", "src/skspatial/objects/line.py:Line.best_fit", "src/skspatial/objects/plane.py:Plane.best_fit", "src/skspatial/objects/plane.py:Plane.from_points", "src/skspatial/objects/circle.py:Circle.from_points", "src/skspatial/objects/circle.py:Circle.intersect_circle", "src/skspatial/objects/plane.py:Plane.intersect_plane", "src/skspatial/objects/triangle.py:Triangle.orthocenter", "src/skspatial/objects/_base_line_plane.py:_BaseLinePlane.is_close"]}
{"id": "C104", "title": "Units and mirrored axes are exact in floating point", "statement": "Change the unit of length by a factor 2^k and turn any axes around: in floating point (away from overflow and underflow) constructors and methods return bit for bit the rescaled result, or raise the same exception. Points and lengths scale by 2^k, areas and sums of squares by 2^2k, volumes by 2^3k; unit vectors only turn around; angles, cosines and predicates (absolute tolerances scaled, or zero where angles are compared) do not change at all; sides and signed areas change sign if an odd number of axes is turned; circle.intersect_circle may exchange the two points. This covers norm, dot, unit, cosine_similarity, angle_between, scalar_projection, project_vector, is_zero, is_perpendicular, is_parallel, from_points, distance_point, centroid, mean_center, normalize_distance; for lines and planes the constructors, project_point, project_vector, project_line, distance_point (signed), side_point, contains_point, sum_squares, is_close, plane.intersect_line, and line.intersect_line without its coplanarity check; spheres, circles and cylinders (constructors, distance_point, project_point, contains_point, is_point_within, sphere and cylinder intersect_line, intersect_circle, all lengths, areas, volumes); segments and triangles (contains_point, intersect_line_segment and orthocenter without coplanarity check, perimeter, area, length, angle, classify, is_right); area_triangle, volume_tetrahedron, area_signed. Defect: circle.intersect_line does depend on the unit; in binary64 it raises for every line whose point has coordinates of magnitude at least 2^55 (about 3.6e16), whatever the circle, even if the line passes through its center.", "quantifier": "all exponents k, all sets of axes, all objects of all dimensions, all binary precisions; for the defect all far-away lines, all circles", "why_tests_cant": "all inputs and all units", "anchors": ["src/skspatial/objects/vector.py:Vector", "src/skspatial/objects/line.py:Line", "src/skspatial/objects/plane.py:Plane", "src/skspatial/objects/sphere.py:Sphere", "src/skspatial/objects/circle.py:Circle.intersect_circle", "src/skspatial/objects/circle.py:Circle.intersect_line", "src/skspatial/objects/cylinder.py:Cylinder", "src/skspatial/objects/triangle.py:Triangle", "src/skspatial/measurement.py:area_signed"]}
{"id": "C105", "title": "Rank decisions under rounding", "statement": "Let e = ((1+h)(1-u)^-(N+2) - 1) M for N distinct points, M the root of the sum of their squared distances from the origin, when every floating-point operation has relative error at most u and np.linalg.matrix_rank is backward stable (it counts the singular values of a matrix A + E with |E| <= h |A|, as LAPACK guarantees). points.affine_rank(tol=t) is at least the dimension of every subspace in all of whose directions the points spread by more than t + e, and some subspace of that dimension has spread above t - e in all directions. So points that are found concurrent, collinear or coplanar with tolerance t are within t + e of one point, line, plane; and points that are exactly concurrent, collinear, coplanar (or fit with a root sum of squares of at most t - e) are found to be so if t >= e. With the default tolerance the threshold is between (1-h)(s-e) and (1+h)(s+e) times max(N, n) 2^-52 for the largest spread s; Triangle(a, b, c) succeeds whenever every vertex is further than 2 ((1+h)(M+e) max(3, n) 2^-52 + e) from the line through the other two. Defect: this default is below the noise for points away from the origin; in binary64 the points (10^6, 0), (10^6+1, 1), (10^6+3, 3) of a line are not collinear for are_collinear, and Triangle accepts them, for every matrix_rank with h <= 2^-40.", "quantifier": "all lists of points of all lengths and dimensions, all tolerances, all roundings, all backward stable rank computations", "why_tests_cant": "floating-point errors depend on every input and on the rounding of every intermediate result", "anchors": ["src/skspatial/objects/points.py:Points.affine_rank", "src/skspatial/objects/points.py:Points.are_concurrent", "src/skspatial/objects/points.py:Points.are_collinear", "src/skspatial/objects/points.py:Points.are_coplanar", "src/skspatial/objects/points.py:Points.mean_center", "src/skspatial/objects/triangle.py:Triangle.__init__"]}
{"id": "C106", "title": "Best-fit lines and planes under rounding", "statement": "Let e = ((1+h)(1-u)^-(N+2) - 1) M for N points, M the root of the sum of their squared distances from the origin, when every floating-point operation has relative error at most u and np.linalg.svd is backward stable (computed factors within h of an exact decomposition of a matrix A + E with |E| <= h |A|, as LAPACK guarantees). Line.best_fit raises ValueError exactly when are_concurrent answers True; otherwise it returns a line through the computed centroid, with a direction of length within h of 1, whose root sum of squared distances from the points exceeds that of no line by more than 4e; the returned error is, up to relative rounding, a square s^2 with s at most e above the fit of every line and at least the fit of the returned line less 3e. Plane.best_fit of points in 3D raises ValueError exactly when are_collinear answers True; otherwise, with full_matrices=True or at least three points, the same holds of the plane with 5e and 4e; with full_matrices=False and fewer than three points it raises IndexError. Defect: the latter happens; in binary64 the two points (2^53, 0, 0) and (2^53+2, 1, 0) are judged not collinear, Plane.best_fit returns one of the many planes through them, and with full_matrices=False it raises IndexError, for every svd with h <= 1/100.", "quantifier": "all lists of points of all lengths and dimensions, all tolerances, all roundings, all backward stable decompositions", "why_tests_cant": "floating-point errors depend on every input and on the rounding of every intermediate result", "anchors": ["src/skspatial/objects/line.py:Line.best_fit", "src/skspatial/objects/plane.py:Plane.best_fit", "src/skspatial/objects/points.py:Points.mean_center", "src/skspatial/objects/points.py:Points.are_collinear", "src/skspatial/objects/points.py:Points.are_concurrent"]}
{"id": "C107", "title": "Radii that are Python floats", "statement": "The radius of a circle, sphere or cylinder may be a Python float or a np.float64. As long as radius ** 2 (radius ** 3 for sphere.volume) is finite, all methods give the same result for both. Otherwise, with a Python float, area, surface_area and volume raise OverflowError instead of returning inf, and circle.intersect_line, circle.intersect_circle, sphere.intersect_line and cylinder.intersect_line raise OverflowError or ValueError, unless the line meets both caps of a finite cylinder. In binary64 this happens exactly for radii from 2^512 (about 1.3e154) on, for sphere.volume from a radius between 2^341 and 2^342 on. sphere.intersect_line then raises for every line with moderate coordinates, although the line meets the sphere: OverflowError for a Python float, ValueError for a np.float64.", "quantifier": "all circles, spheres, cylinders, lines, every arithmetic; all binary64 radii", "why_tests_cant": "all radii and lines; callers that catch ValueError only rely on it", "anchors": ["src/skspatial/objects/circle.py:Circle.area", "src/skspatial/objects/circle.py:Circle.intersect_circle", "src/skspatial/objects/circle.py:Circle.intersect_line", "src/skspatial/objects/sphere.py:Sphere.surface_area", "src/skspatial/objects/sphere.py:Sphere.volume", "src/skspatial/objects/sphere.py:Sphere.intersect_line", "src/skspatial/objects/cylinder.py:Cylinder.volume", "src/skspatial/objects/cylinder.py:Cylinder.intersect_line"]}
{"id": "C108", "title": "Coplanarity of lines under rounding", "statement": "Let e = ((1+h)(1-u)^-7 - 1) M, M the root of the sum of the squared distances from the origin of the four points p, p+d, q, q+e of two lines, when every floating-point operation has relative error at most u and np.linalg.matrix_rank is backward stable with relative perturbation h. If line.is_coplanar(other, tol=t) answers True, one plane is within t + e of the four points; lines that are coplanar are found coplanar if t >= e. Defect: the default tolerance is below e; in binary64 the perpendicular lines through the common point (10^6, 0, 0) with directions (1, 3, 0) and (0, 0, 3) are not found coplanar, and line.intersect_line, which accepts no other tolerance for this check, raises ValueError for them.", "quantifier": "all pairs of lines of all dimensions, all tolerances, all roundings, all backward stable rank computations", "why_tests_cant": "floating-point errors depend on every input and on the rounding of every intermediate result", "anchors": ["src/skspatial/objects/line.py:Line.is_coplanar", "src/skspatial/objects/line.py:Line.intersect_line", "src/skspatial/objects/points.py:Points.are_coplanar"]}
{"id": "C109", "title": "Rounding error of intersections and distances of lines", "statement": "When every floating-point operation has relative error at most u <= 1e-11, for two lines of dimension up to 3 with |cos| < 1 - 1.5e-9 for their angle; let k = 1/sin of the angle, W the distance of their points p, q. line.intersect_line(other), unless its check of coplanarity rejects the lines, returns a point within u (2 |p| + 130 k^2 W) of the point of the first line nearest to the second (of the intersection point, if they meet), within u (2 |p| + 20 k W) of the first line, and no further from the second line than that point up to u (2 |p| + 130 k W). Lines of dimension 1 and 2 are always found coplanar, so that intersect_line returns the point and distance_line 0. line.distance_line(other) in 3D returns 0 if the lines are found coplanar and otherwise a value within 40 u k W of the distance of the lines.", "quantifier": "all pairs of lines that are not nearly parallel, all roundings, all backward stable rank computations", "why_tests_cant": "floating-point errors depend on every input and on the rounding of every intermediate result", "anchors": ["src/skspatial/objects/line.py:Line.intersect_line", "src/skspatial/objects/line.py:Line.distance_line", "src/skspatial/objects/line.py:Line.is_coplanar", "src/skspatial/objects/vector.py:Vector.cross"]}
{"id": "C110", "title": "Rounding error of intersections with spheres and circles", "statement": "When every floating-point operation has relative error at most u. sphere.intersect_line(line), u <= 1e-5, with W the distance of the center from the line's point q, h from the line: it raises if r^2 + 70 u (W^2 + r^2) < h^2, returns two points within u (2 |q| + 150 (W^2 + r^2) / sqrt(r^2 - h^2)) of the exact ones if h^2 + 70 u (W^2 + r^2) < r^2, and whenever it returns, the points are within u (2 |q| + 60 (W + r)) of the line and u (2 |q| + 150 (W^2 + r^2) / r) of the sphere. circle.intersect_line(line) satisfies the same with the larger unit v = u (|q| + W + 10) <= 1/1000 (it adds the unit direction to the point q) and constants 13, 100, 64, 100, plus 2 u |c|. circle.intersect_circle(other), u <= 1e-4, with centers p, q at the distance d and radii r, s: it raises if the centers coincide, if r + s < (1-u)^5 d or d < (1-u)^5 |r - s|; if the circles have two common points with half distance c and 40 u r (r^2 + s^2 + d^2) / d < c^2, it returns two points within u (5 |p| + 75 r (r^2 + s^2 + d^2) / (d c)) of them; whenever it returns, the points are within u (5 |p| + 45 r) of the first circle and u (5 |p| + 55 (r^2 + s^2 + d^2) / s) of the other.", "quantifier": "all spheres, circles and lines, all roundings", "why_tests_cant": "floating-point errors depend on every input and on the rounding of every intermediate result", "anchors": ["src/skspatial/objects/sphere.py:Sphere.intersect_line", "src/skspatial/objects/circle.py:Circle.intersect_line", "src/skspatial/objects/circle.py:Circle.intersect_circle"]}
{"id": "C111", "title": "Rounding error of intersections of lines with infinite cylinders", "statement": "When every floating-point operation has relative error at most u. Let s be the sine of the angle between the axis of a cylinder and a line, H their distance, W the distance of their points p, q; 10^5 u <= s. cylinder.intersect_line(line, infinite=True), with n_digits None or 0, raises if r^2 + 500 (u/s) (W^2 + r^2) < H^2; it returns two points, in the order of the direction of the line, within u (2 |q| + 1100 (W^2 + r^2) / (s^2 sqrt(r^2 - H^2))) of the exact ones if H^2 + 500 (u/s) (W^2 + r^2) < r^2; and whenever it returns, the points are within u (2 |q| + 30 (W + r) / s) of the line and u (2 |q| + 1100 (W^2 + r^2) / (s r)) of the surface. With n_digits = k other than 0 (u <= 1e-5) it raises whenever (s + 50 u)^2 10^k <= 0.49: for every line at all if k is negative, and for every line parallel to the axis if k <= 28 and u <= 2^-53. Defect: without n_digits the check for parallel lines is defeated by rounding; in binary64 the axis itself of the cylinder through the origin with axis (1, 1, 0) and radius 1 is found to meet the surface, in two points 6e15 away.", "quantifier": "all cylinders and lines, all numbers of digits, all roundings", "why_tests_cant": "floating-point errors depend on every input and on the rounding of every intermediate result", "anchors": ["src/skspatial/objects/cylinder.py:Cylinder.intersect_line", "src/skspatial/objects/cylinder.py:_intersect_line_with_infinite_cylinder", "src/skspatial/_functions.py:_solve_quadratic"]}
{"id": "C112", "title": "Rounding error of intersections of lines with finite cylinders", "statement": "When every floating-point operation has relative error at most u. Let s be the sine of the angle between the axis of a cylinder and a line, c its cosine, H their distance, W the distance of their points p, q, a the axis vector, B = |p| + |q| + |a| + r and e = u (2 |q| + 1100 (W^2 + r^2) / (s^2 sqrt(r^2 - H^2))). cylinder.intersect_line(line, infinite=False): if the line keeps a distance of more than 200 u B from both rims and meets both caps, the method returns (whatever n_digits is) two points within 40 u B / |c| of the points where it does. If it keeps a distance of more than 200 u B + 2 e from the rims, 10^5 u <= s, |r^2 - H^2| > 500 (u/s) (W^2 + r^2), and n_digits is None or 0, the method raises ValueError exactly when the line misses the cylinder, and otherwise returns the end points of the part of the line in the cylinder, within e for those on the lateral surface, within 40 u B / |c| for those inside a cap. Whatever the position of the rims, a returned point is within u (8 B + 30 (W + r) / s) of the line and u (50 B + 2200 (W^2 + r^2) / (s r)) of the cylinder. Defect: in binary64, for lines through a rim, the method raises ValueError although the line passes through the middle of the cylinder, or returns the same point twice although the line is in the cylinder for a length of 4.8.", "quantifier": "all cylinders and lines, all roundings", "why_tests_cant": "floating-point errors depend on every input and on the rounding of every intermediate result", "anchors": ["src/skspatial/objects/cylinder.py:Cylinder.intersect_line", "src/skspatial/objects/cylinder.py:_intersect_line_with_finite_cylinder", "src/skspatial/objects/cylinder.py:_intersect_line_with_caps", "src/skspatial/objects/cylinder.py:_between_cap_planes"]}
{"id": "C113", "title": "Rounding error of batch methods, sums of squares and projections onto planes", "statement": "When every floating-point operation has relative error at most u, for points x of dimension n and a line or plane through p: line.project_points returns for each point a point within ((1-u)^-1 - 1) |p| + ((1-u)^-(2n+9) - 1) dist(x, p) of its projection (for planes |x| instead of |p|); line.distance_points returns the distances up to the same error and relative (1-u)^-((n+5)/2); plane.distance_points_signed within ((1-u)^-((3n+9)/2) - 1) dist(x, p), and distance_points its absolute values, exactly; line.sum_squares and plane.sum_squares of N points are within ((1-u)^-(5n+18+N) - 1) sum (|p| + dist(x, p))^2 and ((1-u)^-(3n+10+N) - 1) sum dist(x, p)^2 of the exact sums; plane.project_vector(w) is within ((1-u)^-(2n+9) - 1) (|p| + |w|) of the projection, and plane.project_line returns the line through the projections of point and direction with these errors, unless the line is nearly perpendicular to the plane; points.mean_center returns each coordinate with one relative error of the difference and N + 2 relative to the mean of the magnitudes, and its second result is points.centroid, bit for bit. Floating point: every arithmetic result is rounded with relative error at most u (IEEE binary64: u = 2^-53, no underflow or overflow); sums and dot products are evaluated in any order, with or without fused multiply-add; inputs are arbitrary.", "quantifier": "all lines, planes, lists of points of all lengths and dimensions, all roundings", "why_tests_cant": "floating-point errors depend on every input and on the rounding of every intermediate result", "anchors": ["src/skspatial/objects/line.py:Line.project_points", "src/skspatial/objects/line.py:Line.distance_points", "src/skspatial/objects/line.py:Line.sum_squares", "src/skspatial/objects/plane.py:Plane.project_points", "src/skspatial/objects/plane.py:Plane.distance_points", "src/skspatial/objects/plane.py:Plane.distance_points_signed", "src/skspatial/objects/plane.py:Plane.sum_squares", "src/skspatial/objects/plane.py:Plane.project_vector", "src/skspatial/objects/plane.py:Plane.project_line", "src/skspatial/objects/points.py:Points.mean_center"]}
{"id": "C114", "title": "Rounding error of signed angles, sides and points of lines", "statement": "When every floating-point operation has relative error at most u: v.angle_signed(w) of non-zero 2D vectors differs from the exact signed angle by at most 16 u + 2 h (modulo a full turn at +-pi), if np.linalg.det evaluates 2x2 determinants up to h times the sum of the magnitudes of the two products (h = 4 u for the closed form), and is exactly 0 if a vector is zero; angle_signed_3d differs by at most 66 u if the sine of the angle is at least 3e5 u and the direction is perpendicular to both vectors, and is exactly 0 or pi for exactly parallel vectors; line.side_point in 2D is exact whenever the cross product exceeds (1-u)^-3 - 1 times the sum of the magnitudes of its products; different_direction returns the first or second basis vector, with cosine below 1 - 5e-10; Line.from_points raises ValueError exactly when the two points are equal, and otherwise its direction has coordinates of relative error u; line.to_point(t) has the error ((1-u)^-1 - 1) |p_i| + ((1-u)^-2 - 1) |t d_i| in each coordinate.", "quantifier": "all vectors, lines, points, all roundings, all stable evaluations of determinants", "why_tests_cant": "floating-point errors depend on every input and on the rounding of every intermediate result", "anchors": ["src/skspatial/objects/vector.py:Vector.angle_signed", "src/skspatial/objects/vector.py:Vector.angle_signed_3d", "src/skspatial/objects/vector.py:Vector.different_direction", "src/skspatial/objects/line.py:Line.side_point", "src/skspatial/objects/line.py:Line.from_points", "src/skspatial/objects/line.py:Line.to_point"]}
{"id": "C115", "title": "Rounding error of triangle normals, altitudes and centroids, and of planes through vectors or points", "statement": "When every floating-point operation has relative error at most u: triangle.normal() is within sqrt(2) ((1-u)^-4 - 1) |ab| |ac| of (b - a) x (c - a) (dimension at most 3); each coordinate of triangle.centroid() is within ((1-u)^-4 - 1) times the mean magnitude of the vertices' coordinates; triangle.altitude(vertex) starts exactly at the vertex and its direction is the vector from the vertex to the foot of the altitude up to ((1-u)^-2 - 1) |b| + ((1-u)^-(2n+11) - 1) |ab| (a the vertex, b the next one), and it is returned whenever the altitude is longer than the error of the foot. Plane.from_vectors(p, v, w) returns for vectors with |cos| < 1 - 1.5e-9; whenever it returns, the plane goes exactly through p, its normal is within 3 u |v| |w| of v x w, and every point p + s v + t w is within 6 u / sin(v, w) times its distance from p of the plane. Whenever Plane.from_points(a, b, c) returns, the plane goes exactly through a, and b and c are within 12 u / sin times their distances from a of it, if the sine of the angle at a is above 12 u. plane.cartesian() has exactly the normal as coefficients and the constant -n.p up to ((1-u)^-(n+1) - 1) |n| |p|. line.transform_points gives the coordinate of each point x along the line within ((1-u)^-((3n+9)/2) - 1) dist(x, p).", "quantifier": "all triangles, planes, vectors, lists of points, all roundings", "why_tests_cant": "floating-point errors depend on every input and on the rounding of every intermediate result", "anchors": ["src/skspatial/objects/triangle.py:Triangle.normal", "src/skspatial/objects/triangle.py:Triangle.centroid", "src/skspatial/objects/triangle.py:Triangle.altitude", "src/skspatial/objects/plane.py:Plane.from_vectors", "src/skspatial/objects/plane.py:Plane.from_points", "src/skspatial/objects/plane.py:Plane.cartesian", "src/skspatial/objects/line.py:Line.transform_points"]}
{"id": "C116", "title": "Rounding error of the circle through three points", "statement": "When every floating-point operation has relative error at most u <= 1/100 and np.linalg.det of a 3x3 matrix has an error of at most d times the product of the largest entries of its columns: for three 2D points at distance at most R from the origin, on the circle around o with radius r, that are not found collinear, and with rho = (2 d + 24 u) R^2 / (twice the area of their triangle) such that 30 rho (R + r)^2 <= r^2, Circle.from_points returns a circle whose centre is within 4 rho (R + r) of o and whose radius is within 16 rho (R + r)^2 / r of r. Points found collinear raise ValueError. The closed form of the determinant has d <= 50 u; with it and the default tolerance the points are not found collinear if each of them is further from the line through the other two than the noise of are_collinear, so the bounds hold with rho = 124 u R^2 / (twice the area).", "quantifier": "all triples of 2D points, all roundings, all determinant routines with the stated error", "why_tests_cant": "floating-point errors depend on every input and on the rounding of every intermediate result", "anchors": ["src/skspatial/objects/circle.py:Circle.from_points"]}
{"id": "C117", "title": "Rounding error of the intersection of two planes", "statement": "When every floating-point operation has relative error at most u <= 1e-11 and np.linalg.solve is backward stable (it returns the exact solution for a matrix within eta |A| of the given matrix A whenever all of these are invertible): for 3D planes (p, a), (q, b) with |cos(a, b)| < 1 - 1.5e-9, sine s, normals of length between m and N with m <= 2 <= N, and 200 eta N <= (s m)^2, plane.intersect_plane returns a line. With x the common point nearest to the origin, the line's point is within 70 eta N / (s m)^2 |x| + 12 u (|p| + |q|) / s of x and within 23 eta N / (s m^2) (|x| + 9 u (|p| + |q|) / s) + 8 u |p| of the first plane (8 u |q| for the second), and its direction is within 3 u |a| |b| of a x b. For |cos(a, b)| >= 1 - 5e-10 it raises ValueError.", "quantifier": "all pairs of 3D planes, all roundings, all backward stable linear solvers", "why_tests_cant": "floating-point errors depend on every input and on the rounding of every intermediate result", "anchors": ["src/skspatial/objects/plane.py:Plane.intersect_plane"]}
{"id": "C118", "title": "Rounding error of best-fit circles and spheres", "statement": "When every floating-point operation has relative error at most u <= 1/100 and np.linalg.lstsq is backward stable (an exact least-squares solution for a matrix and a right-hand side within relative h, unless a singular value may be cut off). Let c, r > 0 be the center and radius of the best circle (sphere) in exact arithmetic, the minimiser of R^2 = sum (|x - c|^2 - r^2)^2, s a lower bound on the singular values of the matrix with the rows (2x, 1), F its Frobenius norm, B the norm of the |x|^2, t = 2h + 8u with 4 t F <= s and 4 * 2^-52 max(N, n+1) F <= s, and Z = (2t/s) (F (2R/s + sqrt(|c|^2 + (r^2 - |c|^2)^2)) + B), W = Z (1 + 2 |c| + Z) + 10 u (|r^2 - |c|^2| + Z + (|c| + Z)^2) <= r^2 / 2. Then Circle.best_fit (Sphere.best_fit) of points which pass the rank test returns a circle (sphere) with a center within Z of c and a positive radius within W/r + 2ur of r.", "quantifier": "all lists of points of all lengths, all roundings, all backward stable least-squares solvers", "why_tests_cant": "floating-point errors depend on every input and on the rounding of every intermediate result", "anchors": ["src/skspatial/objects/circle.py:Circle.best_fit", "src/skspatial/objects/sphere.py:Sphere.best_fit"]}
{"id": "C119", "title": "Rounding error of the orthocenter", "statement": "When every floating-point operation has relative error at most u <= 1e-11. For a 2D triangle a, b, c whose angle at c has a sine of at least s >= 1.2e-4, and d with 8 d <= s, u (4 |b| + 30 |ab|) <= d times the height from a, and u (4 |c| + 30 |bc|) <= d times the height from b, triangle.orthocenter() returns a point within u (2 |a| + 520 |ab| / s^2) + (4 d / s) (|Ha| + |Hb|) of the orthocenter H, whatever the extra arguments about coplanarity checks and however np.linalg evaluates the rank within its error bound.", "quantifier": "all 2D triangles with the stated angle and heights, all roundings, all stable singular value routines", "why_tests_cant": "floating-point errors depend on every input and on the rounding of every intermediate result", "anchors": ["src/skspatial/objects/triangle.py:Triangle.orthocenter", "src/skspatial/objects/triangle.py:Triangle.altitude", "src/skspatial/objects/line.py:Line.intersect_line"]}
{"id": "C120", "title": "Rounding error of the meshes of planes, spheres and cylinders", "statement": "When every floating-point operation (including sin and cos, and the value of pi) has relative error at most u. sphere.to_points(n_angles=k), u <= 1/100, k >= 1, returns k^2 points; the one with indices i, j is within u (|c| + 120 r) of the point of the sphere with the polar angle i pi / (k-1) and the azimuth 2 j pi / (k-1), and each is within u (|c| + 11 r) of the sphere. plane.to_points(lims_x, lims_y) of a 2D or 3D plane through p, u <= 1/100, returns one point q per pair of limits, in mesh order, within u (7 |q| + 12 |p|) of the plane; the two coordinates that are not solved for are the first two coordinates of p plus the limits, correctly rounded. cylinder.to_points(n_along_axis=k, n_angles=m), u <= 3e-11, returns m k points within u (4 |p| + 30 |a| + 340 r) of the exact mesh p + t v + r sin(th) e + r cos(th) f with v the unit axis, e and f orthonormal to it, m evenly spaced angles th from 0 to 2 pi and k evenly spaced heights t from 0 to the length, and so of the lateral surface. to_mesh returns arrays of the right shape with the same coordinates.", "quantifier": "all planes, spheres, cylinders, all numbers of angles and heights, all lists of limits, all roundings", "why_tests_cant": "floating-point errors depend on every input and on the rounding of every intermediate result", "anchors": ["src/skspatial/objects/sphere.py:Sphere.to_mesh", "src/skspatial/objects/plane.py:Plane.to_mesh", "src/skspatial/objects/cylinder.py:Cylinder.to_mesh", "src/skspatial/objects/_mixins.py:_ToPointsMixin.to_points"]}
{"id": "C121", "title": "Rounding error of intersect_line_segment and is_close", "statement": "When every floating-point operation has relative error at most u. 2D segments ab, cd, u <= 1e-11, whose lines meet in x at an angle with sine s >= 1.2e-4; let e = u (2 |a| + 524 (|xa| + |xc|) / s^2): segment.intersect_line_segment(other) either returns a point within e of x and within 1.3e-5 segment lengths of both segments, or raises the ValueError 'The line segments must intersect.'; it returns if x is on both segments and e is at most 9e-6 times the distance of x from each end point. line.is_close(other, rel_tol=t, abs_tol=s) (and plane.is_close) in dimension n, for directions (normals) whose squares exceed s and (2n + 6) u <= 4e-10: True if the distance D of the other point from the line and the cosine c of the angle satisfy D + err <= s and 1 - |c| + 6e-10 <= max(t, s), and only if D <= s + err and 1 - |c| <= max(t, s) + 6e-10, with err = u (3 |p| + (6n + 21) |pq|) (for planes u (3n + 11) |pq|). If the square of the first direction is at most s, lines through the same point are close at any angle (defect).", "quantifier": "all 2D segments, all lines and planes of all dimensions, all tolerances, all roundings", "why_tests_cant": "floating-point errors depend on every input and on the rounding of every intermediate result", "anchors": ["src/skspatial/objects/line_segment.py:LineSegment.intersect_line_segment", "src/skspatial/objects/_base_line_plane.py:_BaseLinePlane.is_close", "src/skspatial/objects/vector.py:Vector.is_parallel"]}
{"id": "C122", "title": "Further methods in IEEE binary64: no overflow, underflow or NaN for moderate numbers", "statement": "If all coordinates, radii and the relative tolerance are binary64 numbers that are zero or have a magnitude between 2^-50 and 2^50, the following methods return (or raise) in IEEE binary64 exactly what they do with rounding to 53 bits and unbounded exponent range, so the rounding error theorems apply to them: LineSegment(...) and segment.contains_point; Line.from_points, line.to_point, line.is_close, line.project_points, line.distance_points, line.transform_points; plane.project_vector, project_line, is_close, from_vectors, cartesian, project_points, distance_points(_signed), sum_squares; points.centroid, mean_center, normalize_distance (unless all points are zero); area_signed; triangle.line, length, perimeter, angle, altitude, classify, is_right, normal, area, centroid; vector.angle_signed, angle_signed_3d; points.unique, affine_rank, are_concurrent, are_collinear and are_coplanar with any tolerance (np.linalg.matrix_rank being an arbitrary function of the floats it is given); Triangle(...); line.is_coplanar; line.intersect_line with and without the check and line.distance_line, with the default tolerance; Plane.from_points; circle.intersect_circle; circle.intersect_line, where in particular the sum of squares by which the method divides is never zero. Arithmetic: IEEE 754 binary64, round to nearest even, with gradual underflow, overflow to infinities and NaN (one zero).", "quantifier": "all moderate coordinates, all dimensions and lengths of lists up to 2^53 (dimension at most 3 where cross products occur)", "why_tests_cant": "floating-point errors depend on every input and on the rounding of every intermediate result", "anchors": ["src/skspatial/objects/line_segment.py:LineSegment", "src/skspatial/objects/line.py:Line", "src/skspatial/objects/plane.py:Plane", "src/skspatial/objects/points.py:Points", "src/skspatial/objects/triangle.py:Triangle", "src/skspatial/objects/vector.py:Vector.angle_signed", "src/skspatial/objects/circle.py:Circle.intersect_line", "src/skspatial/objects/circle.py:Circle.intersect_circle", "src/skspatial/measurement.py:area_signed"]}
{"id": "C123", "title": "Error bounds of the methods in IEEE binary64", "statement": "For binary64 coordinates and radii that are zero or have a magnitude between 2^-50 and 2^50, with u = 2^-53 and IEEE arithmetic with overflow, underflow and NaN: sphere.intersect_line and circle.intersect_line raise ValueError if the line misses by more than the stated multiple of u, return if it hits by more than that, each returned point being within u (2 |q| + 150 (|qc|^2 + r^2) / half chord) (sphere; for the circle with the additional factor |q| + |qc| + 10) of an exact intersection point; circle.intersect_circle raises the ValueError for equal centres, separate circles and contained circles, and returns points within u (5 |p| + 75 r (r^2 + s^2 + d^2) / (d * half chord)) of the exact ones; line.intersect_line(check_coplanar=False) returns a point within u (2 |p| + 130 |pq| / sin^2) of the point of the line nearest to the other line; plane.intersect_line within u (2 |q| + (8n + 32) |pq| / cos^2) of the exact intersection; angle_between and angle_signed are within the stated errors of the exact angles; area_triangle, volume_tetrahedron, area_signed and centroid within theirs; Plane.from_vectors contains the point exactly and every p + s v + t w up to 6 u / sin times its distance from p; triangle.classify returns equilateral (scalene) if all pairs of sides agree (none does) up to 7e-10 (13e-10) relatively; triangle.is_right is true for exactly right triangles and only if the squares match up to 13e-10; triangle.angle is within the stated error or raises ValueError, which it does not if |cos| is far enough from 1. Arithmetic: IEEE 754 binary64, round to nearest even, with gradual underflow, overflow to infinities and NaN (one zero).", "quantifier": "all moderate coordinates and radii, all dimensions up to the stated bounds", "why_tests_cant": "floating-point errors depend on every input and on the rounding of every intermediate result", "anchors": ["src/skspatial/objects/sphere.py:Sphere.intersect_line", "src/skspatial/objects/circle.py:Circle.intersect_line", "src/skspatial/objects/circle.py:Circle.intersect_circle", "src/skspatial/objects/line.py:Line.intersect_line", "src/skspatial/objects/plane.py:Plane.intersect_line", "src/skspatial/objects/plane.py:Plane.from_vectors", "src/skspatial/objects/triangle.py:Triangle.classify", "src/skspatial/objects/triangle.py:Triangle.is_right", "src/skspatial/objects/triangle.py:Triangle.angle", "src/skspatial/objects/points.py:Points.centroid", "src/skspatial/objects/vector.py:Vector.angle_between", "src/skspatial/measurement.py:area_triangle"]}
{"id": "C124", "title": "Predicates, measures, segments, triangles and batches in IEEE binary64", "statement": "For binary64 numbers that are zero or have a magnitude between 2^-50 and 2^50, u = 2^-53, IEEE arithmetic with overflow, underflow and NaN: contains_point of lines, planes, circles and spheres with an absolute tolerance s answers True if the exact distance plus its error bound is at most s and False if the exact distance minus its error bound exceeds s; distance_point of lines, circles and spheres has the stated error; is_close of lines and planes is right up to the stated error of the distance and 6e-10 in the cosine; areas, volumes, circumference and length are within 3 to 8 roundings of the exact values; side_vector never reports the wrong side and 0 only up to the rounding error of two products; LineSegment(a, b) raises if all coordinates agree to 9e-10 and succeeds if some coordinate differs by more than 11e-10, relatively; segment.contains_point accepts every point of the segment and only points within 1.3e-5 segment lengths of it; line.project_points, distance_points, transform_points and plane.project_points, distance_points(_signed), sum_squares return one value per point with the stated errors; plane.project_vector and project_line, triangle.perimeter, centroid, altitude, normal and Plane.from_points have the stated errors. Arithmetic: IEEE 754 binary64, round to nearest even, with gradual underflow, overflow to infinities and NaN (one zero).", "quantifier": "all moderate coordinates, radii and tolerances, all lists of points, all dimensions up to the stated bounds", "why_tests_cant": "floating-point errors depend on every input and on the rounding of every intermediate result", "anchors": ["src/skspatial/objects/line.py:Line", "src/skspatial/objects/plane.py:Plane", "src/skspatial/objects/circle.py:Circle", "src/skspatial/objects/sphere.py:Sphere", "src/skspatial/objects/cylinder.py:Cylinder", "src/skspatial/objects/line_segment.py:LineSegment", "src/skspatial/objects/triangle.py:Triangle", "src/skspatial/objects/vector.py:Vector.side_vector"]}
{"id": "C125", "title": "Intersections of lines and cylinders in IEEE binary64", "statement": "If the coordinates and the radius are binary64 numbers that are zero or have a magnitude between 2^-20 and 2^20, then cylinder.intersect_line(line, n_digits=None or 0, infinite=True or False) returns in IEEE binary64 (with overflow, underflow and NaN) exactly the points, or raises the exception, of the computation with rounding to 53 bits and unbounded exponent range; in particular no coordinate is inf or nan. With u = 2^-53, W the distance of the two base points, H the distance of the line from the axis and s >= 1e5 u the sine of the angle between them: with infinite=True it raises ValueError if r^2 + 500 (u/s) (W^2 + r^2) < H^2, returns two points within u (2 |q| + 1100 (W^2 + r^2) / (s^2 sqrt(r^2 - H^2))) of the exact ones if H^2 + 500 (u/s) (W^2 + r^2) < r^2, and every returned point is within u (2 |q| + 30 (W + r) / s) of the line and u (2 |q| + 1100 (W^2 + r^2) / (s r)) of the surface; with infinite=False, away from the rims and not grazing, it raises exactly if the line misses the cylinder and otherwise returns the end points of the common segment up to the stated errors.", "quantifier": "all everyday coordinates and radii, all lines and cylinders accepted by the constructors", "why_tests_cant": "floating-point errors depend on every input and on the rounding of every intermediate result", "anchors": ["src/skspatial/objects/cylinder.py:Cylinder.intersect_line"]}
{"id": "C126", "title": "Rounding error of segment intersections and orthocenters in space", "statement": "When every floating-point operation has relative error at most u, and np.linalg.matrix_rank is backward stable. Dimension at most 3. Segments ab, cd, u <= 1e-12, whose lines meet in x at an angle with sine s >= 1.2e-4; let e = u (2 |a| + 525 (|xa| + |xc|) / s^2): segment.intersect_line_segment(other) returns a point within e of x and within 1.3e-5 segment lengths of both segments, or raises the ValueError 'The line segments must intersect.' (not if x is on both segments and further than e / 9e-6 from the end points), or, only in space and if coplanarity is checked, raises the ValueError 'The lines must be coplanar.'. Triangles a, b, c, u <= 1e-11, whose angle at c has a sine of at least s >= 1.2e-4, and d with 8 d <= s, u (4 |b| + 34 |ab|) <= d times the height from a, u (4 |c| + 34 |bc|) <= d times the height from b: triangle.orthocenter() returns a point within u (2 |a| + 520 |ab| / s^2) + (5 d / s) (|Ha| + |Hb|) of the orthocenter H or, only in space and if coplanarity is checked, raises 'The lines must be coplanar.'.", "quantifier": "all segments whose lines meet and all triangles of dimension up to 3 with the stated angles, all roundings, all backward stable rank computations", "why_tests_cant": "floating-point errors depend on every input and on the rounding of every intermediate result", "anchors": ["src/skspatial/objects/line_segment.py:LineSegment.intersect_line_segment", "src/skspatial/objects/triangle.py:Triangle.orthocenter", "src/skspatial/objects/triangle.py:Triangle.altitude", "src/skspatial/objects/line.py:Line.intersect_line"]}
{"id": "C127", "title": "Intersections of line segments in IEEE binary64", "statement": "If the coordinates of the end points a, b and c, d of two segments of dimension at most 3 are binary64 numbers that are zero or have a magnitude between 2^-20 and 2^20, then segment.intersect_line_segment(other), with or without the check of coplanarity (np.linalg.matrix_rank being an arbitrary function of the floats it is given), returns in IEEE binary64 (with overflow, underflow and NaN) exactly the point, or raises the exception, of the computation with rounding to 53 bits and unbounded exponent range; in particular no coordinate is inf or nan. (The cosine of the angle under which the end points are seen may underflow, but only where the answer does not depend on it.) With u = 2^-53, for lines that meet in x at an angle with sine s >= 1.2e-4, e = u (2 |a| + 525 (|xa| + |xc|) / s^2) and a backward stable matrix_rank: the method returns a point within e of x and within 1.3e-5 segment lengths of both segments, or raises the ValueError 'The line segments must intersect.' (not if x is on both segments and further than e / 9e-6 from the end points), or, only in space and if coplanarity is checked, the ValueError 'The lines must be coplanar.'.", "quantifier": "all segments with everyday end points accepted by the constructor, dimension at most 3", "why_tests_cant": "floating-point errors depend on every input and on the rounding of every intermediate result", "anchors": ["src/skspatial/objects/line_segment.py:LineSegment.intersect_line_segment", "src/skspatial/objects/line_segment.py:LineSegment.contains_point", "src/skspatial/objects/line.py:Line.intersect_line"]}
{"id": "C128", "title": "The circle through three points in IEEE binary64", "statement": "If the coordinates of a, b, c are binary64 numbers that are zero or have a magnitude between 2^-50 and 2^50, then in IEEE binary64 (with overflow, underflow and NaN; the determinants evaluated in closed form) a circle that Circle.from_points(a, b, c, tol=...) returns has a finite centre and a finite positive radius, the same as with rounding to 53 bits and unbounded exponent range (np.linalg.matrix_rank being an arbitrary function of the floats it is given); if Points([a, b, c]).are_collinear(tol) is True the method raises ValueError; and with u = 2^-53, a backward stable matrix_rank and the default tolerance, for points on the circle with centre o and radius r, within R of the origin, forming a triangle not thinner than the noise of the collinearity test, and with rho = 124 u R^2 / (2 area) so small that 30 rho (R + r)^2 <= r^2, a circle is returned whose centre is within 4 rho (R + r) of o and whose radius is within 16 rho (R + r)^2 / r of r. Arithmetic: IEEE 754 binary64, round to nearest even, with gradual underflow, overflow to infinities and NaN (one zero).", "quantifier": "all triples of moderate 2D points, all tolerances, all rank routines", "why_tests_cant": "floating-point errors depend on every input and on the rounding of every intermediate result", "anchors": ["src/skspatial/objects/circle.py:Circle.from_points", "src/skspatial/objects/points.py:Points.are_collinear"]}
{"id": "C129", "title": "The intersection of two planes in IEEE binary64", "statement": "If the coordinates of the points and normals of two planes in space, (p, a) and (q, b), are binary64 numbers that are zero or have a magnitude between 2^-50 and 2^50, then in IEEE binary64 (with overflow, underflow and NaN) a line that plane.intersect_plane(other) returns has finite coordinates and a nonzero direction, the same as with rounding to 53 bits and unbounded exponent range, whatever floats np.linalg.solve returns, even inf or nan; planes whose normals are parallel up to 5e-10 in the cosine raise ValueError; and if np.linalg.solve is backward stable with relative perturbation eta and returns finite floats, for normals of length between m and N at an angle with sine s that is not negligible, with 200 eta N <= (s m)^2, a line is returned. With x the common point nearest to the origin and u = 2^-53, its point is within 70 eta N / (s m)^2 |x| + 12 u (|p| + |q|) / s of x and within 23 eta N / (s m^2) (|x| + 9 u (|p| + |q|) / s) + 8 u |p| (|q|) of the planes, and its direction within 3 u |a| |b| of a x b. Arithmetic: IEEE 754 binary64, round to nearest even, with gradual underflow, overflow to infinities and NaN (one zero).", "quantifier": "all pairs of planes in space with moderate coordinates accepted by the constructor, all linear solvers", "why_tests_cant": "floating-point errors depend on every input and on the rounding of every intermediate result", "anchors": ["src/skspatial/objects/plane.py:Plane.intersect_plane", "src/skspatial/objects/plane.py:Plane.__init__"]}
{"id": "C130", "title": "Symmetries that hold bit for bit in IEEE binary64", "statement": "In IEEE binary64, for finite coordinates of any magnitude (also if intermediate results overflow or underflow, and including the exceptions raised): exchanging the two operands does not change distance_point, cosine_similarity, angle_between, is_perpendicular and is_parallel, and changes all signs of cross and from_points; changing all signs of a vector changes the signs of its unit vector, cosine similarity, cross product and scalar projection, and not its norm, is_zero, is_perpendicular, is_parallel and project_vector (nor angle_between, if both are changed). Line(p, -d) is accepted when Line(p, d) is, and project_point, project_vector, project_points, distance_point, distance_points, contains_point, sum_squares and is_close give the same results, side_point the opposite one, and to_point(-t) the point to_point(t); likewise for Plane(p, -n) with project_point, project_points, project_vector, project_line, distance_point, distance_points, contains_point, sum_squares, is_close, and opposite signs for distance_point_signed, distance_points_signed, side_point and cartesian. segment.contains_point does not depend on the order of the end points, area_triangle(a, b, c) = area_triangle(a, c, b) and volume_tetrahedron(a, b, c, d) = volume_tetrahedron(a, b, d, c). (0 and -0.0 count as equal.) Arithmetic: IEEE 754 binary64, round to nearest even, with gradual underflow, overflow to infinities and NaN (one zero).", "quantifier": "all arrays of finite floats of all dimensions, all tolerances", "why_tests_cant": "floating-point errors depend on every input and on the rounding of every intermediate result", "anchors": ["src/skspatial/objects/vector.py:Vector", "src/skspatial/objects/line.py:Line", "src/skspatial/objects/plane.py:Plane", "src/skspatial/objects/line_segment.py:LineSegment.contains_point", "src/skspatial/measurement.py:area_triangle"]}
