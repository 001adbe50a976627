"""Translate the parametrised unit tests of /repo/tests into `#guard`s on the Float instance of the model.

The test modules are executed with stub versions of pytest, numpy and skspatial that only record the tables of
parameters; no code of the repository under test runs.  Output: lean/Verif/Tests/Unit.lean.
"""
import dataclasses, math, sys, types, pathlib

ROOT = pathlib.Path('/repo/tests/unit')


class Arr:
    def __init__(self, d): self.d = d
    def __mul__(self, k): return Arr(mul(self.d, k))
    __rmul__ = __mul__


def mul(d, k): return [mul(x, k) for x in d] if isinstance(d, list) else d * k


class Obj:
    def __init__(self, *a, **k): self.a = list(a) + list(k.values())


names = ['Point', 'Points', 'Vector', 'Line', 'LineSegment', 'Plane', 'Circle', 'Sphere', 'Triangle', 'Cylinder']
CLS = {n: type(n, (Obj,), {}) for n in names}
tests = []          # (module, name, list of dicts of parameters)


def mod(name, **kw):
    m = types.ModuleType(name)
    m.__dict__.update(kw)
    sys.modules[name] = m
    return m


def parametrize(argnames, rows):
    if isinstance(argnames, str):
        argnames = [x.strip() for x in argnames.split(',')]
        rows = [(r,) if len(argnames) == 1 else r for r in rows]
    def deco(f):
        f.__dict__.setdefault('params', []).append([dict(zip(argnames, r)) for r in rows])
        return f
    return deco


pytest = mod('pytest', mark=types.SimpleNamespace(parametrize=parametrize), fixture=lambda *a: (lambda f: f))


def full(shape, v):
    if isinstance(shape, int): return [v] * shape
    return [full(shape[1:] if len(shape) > 2 else shape[1], v) for _ in range(shape[0])]


np = mod('numpy', pi=math.pi, nan=math.nan, inf=math.inf, sqrt=math.sqrt, array=lambda x: Arr(x),
         ones=lambda s: Arr(full(s, 1)), zeros=lambda s: Arr(full(s, 0)), ndarray=Arr)
mod('numpy.testing', assert_array_equal=None, assert_array_almost_equal=None)
mod('skspatial')
mod('skspatial.objects', **CLS)
mod('skspatial.objects.line_segment', LineSegment=CLS['LineSegment'])
mod('skspatial._functions', _solve_quadratic=None, _allclose=None)
mod('skspatial.measurement', area_signed=None, area_triangle=None, volume_tetrahedron=None)
mod('skspatial.typing', array_like=object)
mod('tests'); mod('tests.unit'); mod('tests.unit.objects')

order = ['test_functions', 'test_measurement', 'objects/test_base_array', 'objects/test_base_array_1d',
         'objects/test_base_array_2d', 'objects/test_base_line_plane', 'objects/test_point', 'objects/test_points',
         'objects/test_vector', 'objects/test_line', 'objects/test_plane', 'objects/test_line_plane',
         'objects/test_line_segment', 'objects/test_circle', 'objects/test_sphere', 'objects/test_triangle',
         'objects/test_cylinder']
mods = {}
for rel in order:
    m = mod('tests.unit.' + rel.replace('/', '.'))
    exec(compile((ROOT / (rel + '.py')).read_text(), rel, 'exec'), m.__dict__)
    short = rel.split('/')[-1][5:]
    mods[short] = m
    for k, f in list(m.__dict__.items()):
        if k.startswith('test_') and hasattr(f, 'params'):
            rows = [{}]
            for ps in f.params:
                rows = [dict(r, **p) for r in rows for p in ps]
            tests.append((short, k[5:], rows))


def lean(x):
    if isinstance(x, Arr): return lean(x.d)
    if isinstance(x, (list, tuple)): return '[' + ', '.join(lean(y) for y in x) + ']'
    if isinstance(x, bool): return 'true' if x else 'false'
    if isinstance(x, float) and math.isnan(x): return 'nan'
    if isinstance(x, float) and math.isinf(x): return 'inf'
    if isinstance(x, (int, float)): return repr(x) if x >= 0 and math.copysign(1, x) > 0 else f'({x!r})'
    if isinstance(x, str): return '"' + x + '"'
    if isinstance(x, Obj):
        t = type(x).__name__
        if t in ('Point', 'Points', 'Vector'): return lean(x.a[0])
        c = {'Line': 'L', 'Plane': 'P', 'Circle': 'C', 'Sphere': 'S', 'Cylinder': 'Cy', 'LineSegment': 'Sg'}[t]
        return '(' + c + ' ' + ' '.join(lean(y) for y in x.a) + ')'
    raise TypeError(x)


def nd(x):
    x = x.d if isinstance(x, Arr) else x
    if x and isinstance(x[0], list):
        return f'(⟨[{len(x)}, {len(x[0])}], {lean([z for y in x for z in y])}⟩ : NDArray F)'
    return f'(⟨[{len(x)}], {lean(x)}⟩ : NDArray F)'


def obj(x):
    t = type(x).__name__
    return '(.' + {'Line': 'line', 'Plane': 'plane', 'Point': 'point'}[t] + ' ' + lean(x) + ')'


def ctor(c): return {'Point': 'newArray1D', 'Vector': 'newArray1D', 'Points': 'newArray2D'}[c.__name__]


def yn(b, e): return f'{"yes" if b else "no"} ({e})'
def raises(e, msg): return f'raises ({e}) {lean(msg)}'
def fl(x): return f'({lean(x)} : List F)'
def flm(x): return f'({lean(x)} : List (List F))'


T = {}
T['functions', 'solve_quadratic'] = lambda a, b, c, x1_expected, x2_expected: \
    f'ok (solveQuadratic {lean(a)} {lean(b)} ({lean(c)} : F) none) fun r => tight r.1 {lean(x1_expected)} && tight r.2 {lean(x2_expected)}'
T['functions', 'solve_quadratic_failure'] = lambda a, b, c, message_expected: \
    raises(f'solveQuadratic {lean(a)} {lean(b)} ({lean(c)} : F) none', message_expected)
T['measurement', 'area_triangle'] = lambda array_a, array_b, array_c, area_expected: \
    f'tval (Measurement.areaTriangle {lean(array_a)} {lean(array_b)} {lean(array_c)}) {lean(area_expected)}'
T['measurement', 'volume_tetrahedron'] = lambda array_a, array_b, array_c, array_d, volume_expected: \
    f'tval (Measurement.volumeTetrahedron {lean(array_a)} {lean(array_b)} {lean(array_c)} {lean(array_d)}) {lean(volume_expected)}'
T['measurement', 'area_signed'] = lambda points, area_expected: f'tval (Measurement.areaSigned {lean(points)}) {lean(area_expected)}'
T['measurement', 'area_signed_failure'] = lambda points, message_expected: \
    raises(f'Measurement.areaSigned {flm(points)}', message_expected)
T['base_array', 'failure_from_empty_array'] = lambda class_spatial, array, message_expected: \
    raises(f'{ctor(class_spatial)} {nd(array)}', message_expected)
T['base_array', 'failure_from_infinite_values'] = lambda class_spatial, array: \
    raises(f'{ctor(class_spatial)} {nd(array)}', "The values must all be finite.")
T['base_array_1d', 'equality'] = lambda class_spatial, array: f'vec (new1D {lean(array)}) {lean(array)}'
T['base_array_1d', 'failure'] = lambda class_spatial, array: raises(f'{ctor(class_spatial)} {nd(array)}', "The array must be 1D.")
T['base_array_1d', 'set_dimension'] = lambda class_spatial, array, dim, array_expected: \
    f'vec (setDimension {dim} {lean(array)}) {lean(array_expected)}'
T['base_array_1d', 'dimension_failure'] = lambda class_spatial, array, dimension: \
    raises(f'setDimension {dimension} {fl(array)}', "The desired dimension cannot be less than the current dimension.")
T['base_array_2d', 'dimension_failure'] = lambda array, dimension: \
    raises(f'setDimension2D {dimension} {flm(array)}', "The desired dimension cannot be less than the current dimension.")
T['base_line_plane', 'dimension'] = lambda class_spatial, point, vector, dim_expected: \
    f'ok ({class_spatial.__name__}.new {lean(point)} {fl(vector)}) fun l => l.dimension == {dim_expected}'
T['point', 'distance_point'] = lambda array_a, array_b, dist_expected: \
    f'tval (Pt.distancePoint {lean(array_a)} {lean(array_b)}) {lean(dist_expected)}'
T['points', 'failure'] = lambda array: raises(f'newArray2D {nd(array)}', "The array must be 2D.")
T['points', 'set_dimension'] = lambda points, dim, points_expected: f'mat (setDimension2D {dim} {lean(points)}) {lean(points_expected)}'
T['points', 'mean_center'] = lambda array_points, array_centered_expected, centroid_expected: \
    f'ok (Pts.meanCenter {lean(array_points)}) fun r => tightM r.1 {lean(array_centered_expected)} && tightL r.2 {lean(centroid_expected)}'
T['points', 'normalize_distance'] = lambda array_points, array_points_expected: \
    f'tightM (Pts.normalizeDistance {lean(array_points)}) {lean(array_points_expected)}'
T['points', 'are_collinear'] = lambda points, bool_expected: yn(bool_expected, f'Pts.areCollinear (none : Option F) {lean(points)}')
V = 'vector'
T[V, 'from_points'] = lambda array_a, array_b, vector_expected: f'tvec (Vec.fromPoints {lean(array_a)} {lean(array_b)}) {lean(vector_expected)}'
T[V, 'unit'] = lambda array, array_unit_expected: f'tvec (Vec.unit {lean(array)}) {lean(array_unit_expected)}'
T[V, 'unit_failure'] = lambda array: raises(f'Vec.unit {fl(array)}', "The magnitude must not be zero.")
T[V, 'is_zero'] = lambda array, kwargs, bool_expected: \
    yn(bool_expected, f'Vec.isZero {"⟨1e-9, 1e-3⟩" if kwargs else "dflt"} {lean(array)}')
T[V, 'cosine_similarity'] = lambda array_u, array_v, similarity_expected: \
    f'tval (Vec.cosineSimilarity {lean(array_u)} {lean(array_v)}) {lean(similarity_expected)}'
T[V, 'cosine_similarity_failure'] = lambda array_u, array_v: \
    raises(f'Vec.cosineSimilarity {lean(array_u)} {fl(array_v)}', "The vectors must have non-zero magnitudes.")
T[V, 'angle_between'] = lambda array_u, array_v, angle_expected: \
    f'tval (Vec.angleBetween {lean(array_u)} {lean(array_v)}) {lean(angle_expected)}'
T[V, 'angle_signed'] = lambda array_u, array_v, angle_expected: \
    f'tval (Vec.angleSigned {lean(array_u)} {lean(array_v)}) {lean(angle_expected)}'
T[V, 'angle_signed_failure'] = lambda array_u, array_v: \
    raises(f'Vec.angleSigned {lean(array_u)} {fl(array_v)}', "The vectors must be 2D.")
T[V, 'angle_signed_3d'] = lambda array_u, array_v, direction_positive, angle_expected: \
    f'tval (Vec.angleSigned3d {lean(array_u)} {lean(array_v)} {lean(direction_positive)}) {lean(angle_expected)}'
T[V, 'angle_signed_3d_failure'] = lambda array_u, array_v, direction_positive, message_expected: \
    raises(f'Vec.angleSigned3d {lean(array_u)} {lean(array_v)} {fl(direction_positive)}', message_expected)
T[V, 'is_perpendicular'] = lambda array_u, array_v, bool_expected: yn(bool_expected, f'Vec.isPerpendicular dflt {lean(array_u)} {lean(array_v)}')
T[V, 'is_parallel'] = lambda array_u, array_v, bool_expected: yn(bool_expected, f'Vec.isParallel dflt {lean(array_u)} {lean(array_v)}')
T[V, 'side_vector'] = lambda array_a, array_b, value_expected: f'ok (Vec.sideVector {fl(array_a)} {lean(array_b)}) (· == {value_expected})'
T[V, 'side_vector_failure'] = lambda array_a, array_b: raises(f'Vec.sideVector {fl(array_a)} {lean(array_b)}', "The vectors must be 2D.")
T[V, 'project_vector'] = lambda vector_u, vector_v, vector_expected: f'tvec (Vec.projectVector {lean(vector_v)} {lean(vector_u)}) {lean(vector_expected)}'
T[V, 'different_direction'] = lambda array, array_expected: f'tvec (Vec.differentDirection dflt {lean(array)}) {lean(array_expected)}'
T[V, 'different_direction_failure'] = lambda array: raises(f'Vec.differentDirection dflt {fl(array)}', "The vector must not be the zero vector.")
N = 'line'
T[N, 'from_points'] = lambda array_a, array_b, line_expected: \
    f'ok (Line.fromPoints {lean(array_a)} {lean(array_b)}) fun l => yes (Line.isClose dflt l (.line {lean(line_expected)}))'
T[N, 'from_points_failure'] = lambda array_a, array_b: raises(f'Line.fromPoints {lean(array_a)} {fl(array_b)}', "The vector must not be the zero vector.")
T[N, 'from_slope'] = lambda slope, y_intercept, line_expected: \
    f'ok (Line.fromSlope {lean(slope)} {lean(y_intercept)}) fun l => yes (Line.isClose dflt l (.line {lean(line_expected)}))'
T[N, 'to_point'] = lambda line, param, array_expected: f'tvec (Line.toPoint {lean(line)} {lean(param)}) {lean(array_expected)}'
T[N, 'is_coplanar'] = lambda line_a, line_b, bool_expected: yn(bool_expected, f'Line.isCoplanar none {lean(line_a)} {obj(line_b)}')
T[N, 'is_coplanar_failure'] = lambda line_a, line_b: f'raisesType (Line.isCoplanar none {lean(line_a)} {obj(line_b)}) "The input must also be a line."'
T[N, 'project_point'] = lambda point, point_line, vector_line, point_expected, dist_expected: \
    f'tvec (Line.projectPoint (L {lean(point_line)} {lean(vector_line)}) {lean(point)}) {lean(point_expected)} && ' \
    f'tval (Line.distancePoint (L {lean(point_line)} {lean(vector_line)}) {lean(point)}) {lean(dist_expected)}'
T[N, 'project_points'] = lambda points, point_line, vector_line: \
    f'sameM (Line.projectPoints (L {lean(point_line)} {lean(vector_line)}) {lean(points)}) ' \
    f'(List.mapM (Line.projectPoint (L {lean(point_line)} {lean(vector_line)})) {lean(points)})'
T[N, 'project_vector'] = lambda line, vector, vector_expected: f'tvec (Line.projectVector {lean(line)} {lean(vector)}) {lean(vector_expected)}'
T[N, 'side_point'] = lambda line, point, value_expected: f'ok (Line.sidePoint {lean(line)} {lean(point)}) (· == {value_expected})'
T[N, 'distance_point'] = lambda array_point, line, dist_expected: f'tval (Line.distancePoint {lean(line)} {lean(array_point)}) {lean(dist_expected)}'
T[N, 'distance_points'] = lambda array_points, line: \
    f'sameV (Line.distancePoints {lean(line)} {lean(array_points)}) (List.mapM (Line.distancePoint {lean(line)}) {lean(array_points)})'
T[N, 'distance_line'] = lambda line_a, line_b, dist_expected: f'tval (Line.distanceLine {lean(line_a)} {lean(line_b)}) {lean(dist_expected)}'
T[N, 'intersect_line'] = lambda line_a, line_b, array_expected, check_coplanar: \
    f'tvec (Line.intersectLine {lean(line_a)} {lean(line_b)} {lean(check_coplanar)} dflt) {lean(array_expected)}'
T[N, 'intersect_line_failure'] = lambda line_a, line_b, message_expected: \
    raises(f'Line.intersectLine {lean(line_a)} {lean(line_b)} true dflt', message_expected)
T[N, 'sum_squares'] = lambda line, points, error_expected: f'tval (Line.sumSquares {lean(line)} {lean(points)}) {lean(error_expected)}'
T[N, 'transform_points'] = lambda line, points, coords_expected: f'tvec (Line.transformPoints {lean(line)} {lean(points)}) {lean(coords_expected)}'
T[N, 'best_fit'] = lambda points, line_expected: \
    f'ok (Line.bestFit {lean(points)} none false) fun r => yes (Line.isClose ⟨1e-9, 1e-9⟩ r.1 (.line {lean(line_expected)})) && tightL r.1.point {lean(line_expected.a[0])}'
T[N, 'best_fit_with_error'] = lambda points, line_expected, error_expected: \
    f'ok (Line.bestFit {lean(points)} none false) fun r => yes (Line.isClose ⟨1e-9, 1e-9⟩ r.1 (.line {lean(line_expected)})) && tightL r.1.point {lean(line_expected.a[0])} && tight r.2 {lean(error_expected)}'
T[N, 'best_fit_failure'] = lambda points, message_expected: raises(f'Line.bestFit {flm(points)} none false', message_expected)
Q = 'plane'
T[Q, 'from_vectors'] = lambda array_point, array_a, array_b, plane_expected: \
    f'ok (Plane.fromVectors dflt {lean(array_point)} {lean(array_a)} {lean(array_b)}) fun p => ' \
    f'yes (Plane.isClose dflt p (.plane {lean(plane_expected)})) && tightL p.normal {lean(plane_expected.a[1])}'
T[Q, 'from_vectors_failure'] = lambda array_point, array_a, array_b: \
    raises(f'Plane.fromVectors dflt {lean(array_point)} {lean(array_a)} {lean(array_b)}', "The vectors must not be parallel.")
T[Q, 'from_points'] = lambda point_a, point_b, point_c, plane_expected: \
    f'ok (Plane.fromPoints none {lean(point_a)} {lean(point_b)} {lean(point_c)}) fun p => ' \
    f'yes (Plane.isClose dflt p (.plane {lean(plane_expected)})) && tightL p.point {lean(plane_expected.a[0])}'
T[Q, 'from_points_failure'] = lambda point_a, point_b, point_c: \
    raises(f'Plane.fromPoints none {lean(point_a)} {lean(point_b)} {fl(point_c)}', "The points must not be collinear.")
T[Q, 'cartesian'] = lambda plane, coeffs_expected: \
    f'ok (Plane.cartesian {lean(plane)}) fun r => tightL [r.1, r.2.1, r.2.2.1, r.2.2.2] {lean(coeffs_expected)}'
T[Q, 'cartesian_failure'] = lambda plane: raises(f'Plane.cartesian {lean(plane)}', "The plane dimension must be <= 3.")
T[Q, 'project_point'] = lambda point, point_plane, normal_plane, point_expected, dist_expected: \
    f'tvec (Plane.projectPoint (P {lean(point_plane)} {lean(normal_plane)}) {lean(point)}) {lean(point_expected)} && ' \
    f'tval (Plane.distancePointSigned (P {lean(point_plane)} {lean(normal_plane)}) {lean(point)}) {lean(dist_expected)}'
def plane_points(p, points):
    return (f'sameM (Plane.projectPoints {p} {points}) (List.mapM (Plane.projectPoint {p}) {points}) && '
            f'sameV (Plane.distancePoints {p} {points}) (List.mapM (Plane.distancePoint {p}) {points}) && '
            f'sameV (Plane.distancePointsSigned {p} {points}) (List.mapM (Plane.distancePointSigned {p}) {points})')
T[Q, 'project_points'] = lambda points, point_plane, normal_plane: plane_points(f'(P {lean(point_plane)} {lean(normal_plane)})', lean(points))
T[Q, 'distance_points'] = lambda points, plane: plane_points(lean(plane), lean(points))
T[Q, 'project_vector'] = lambda plane, vector, vector_expected: f'tvec (Plane.projectVector {lean(plane)} {lean(vector)}) {lean(vector_expected)}'
T[Q, 'project_line'] = lambda plane, line, line_expected: \
    f'line (Plane.projectLine dflt {lean(plane)} {lean(line)}) {lean(line_expected.a[0])} {lean(line_expected.a[1])}'
T[Q, 'project_line_failure'] = lambda plane, line: raises(f'Plane.projectLine dflt {lean(plane)} {lean(line)}', "The line and plane must not be perpendicular.")
T[Q, 'distance_point'] = lambda point, plane, dist_signed_expected: \
    f'tval (Plane.distancePointSigned {lean(plane)} {lean(point)}) {lean(dist_signed_expected)} && ' \
    f'tval (Plane.distancePoint {lean(plane)} {lean(point)}) {lean(abs(dist_signed_expected))}'
T[Q, 'side_point'] = lambda plane, point, value_expected: f'ok (Plane.sidePoint {lean(plane)} {lean(point)}) (· == {value_expected})'
T[Q, 'intersect_line'] = lambda line, plane, array_expected: f'tvec (Plane.intersectLine dflt {lean(plane)} {lean(line)}) {lean(array_expected)}'
T[Q, 'intersect_line_failure'] = lambda line, plane: raises(f'Plane.intersectLine dflt {lean(plane)} {lean(line)}', "The line and plane must not be parallel.")
T[Q, 'intersect_plane'] = lambda plane_a, plane_b, line_expected: \
    f'ok (Plane.intersectPlane dflt {lean(plane_a)} {lean(plane_b)}) fun l => yes (Line.isClose dflt l (.line {lean(line_expected)}))'
T[Q, 'intersect_plane_failure'] = lambda plane_a, plane_b: raises(f'Plane.intersectPlane dflt {lean(plane_a)} {lean(plane_b)}', "The planes must not be parallel.")
T[Q, 'sum_squares_plane'] = lambda plane, points, error_expected: f'tval (Plane.sumSquares {lean(plane)} {lean(points)}) {lean(error_expected)}'
T[Q, 'best_fit_failure'] = lambda points, message_expected: raises(f'Plane.bestFit {flm(points)} none false', message_expected)
T[Q, 'best_fit'] = lambda points, plane_expected: \
    f'ok (do Plane.bestFit (← setDimension2D 3 {lean(points)}) none false) fun r => yes (Plane.isClose ⟨1e-9, 1e-9⟩ r.1 (.plane {lean(plane_expected)})) && tightL r.1.point {lean(plane_expected.a[0])}'
T[Q, 'best_fit_with_error'] = lambda points, plane_expected, error_expected: \
    f'ok (do Plane.bestFit (← setDimension2D 3 {lean(points)}) none false) fun r => yes (Plane.isClose ⟨1e-9, 1e-9⟩ r.1 (.plane {lean(plane_expected)})) && tightL r.1.point {lean(plane_expected.a[0])} && tight r.2 {lean(error_expected)}'
T[Q, 'to_points'] = lambda plane, points_expected: f'tmat (Plane.toPoints {lean(plane)} [-1, 1] [-1, 1]) {lean(points_expected)}'
R = 'line_plane'
T[R, 'zero_vector_failure'] = lambda class_spatial, point, vector: \
    raises(f'{class_spatial.__name__}.new {lean(point)} {fl(vector)}', "The vector must not be the zero vector.")
T[R, 'dimension_failure'] = lambda class_spatial, point, vector: \
    raises(f'{class_spatial.__name__}.new {lean(point)} {fl(vector)}', "The point and vector must have the same dimension.")
T[R, 'is_close'] = lambda obj_1, obj_2, bool_expected: yn(bool_expected, f'{type(obj_1).__name__}.isClose dflt {lean(obj_1)} {obj(obj_2)}')
T[R, 'is_close_failure'] = lambda obj_1, obj_2: \
    f'raisesType ({type(obj_1).__name__}.isClose dflt {lean(obj_1)} {obj(obj_2)}) "The input must have the same type as the object."'
G = 'line_segment'
T[G, 'initialize'] = lambda point_a, point_b: \
    f'ok (LineSegment.new {lean(point_a)} {lean(point_b)}) fun s => tightL s.pointA {lean(point_a)} && tightL s.pointB {lean(point_b)}'
T[G, 'failure'] = lambda point_a, point_b: raises(f'LineSegment.new {lean(point_a)} {fl(point_b)}', "The endpoints must not be equal.")
T[G, 'contains_point'] = lambda segment, point, bool_expected: yn(bool_expected, f'LineSegment.containsPoint dflt {lean(segment)} {lean(point)}')
T[G, 'contains_point_with_tolerance'] = lambda segment, point, bool_expected: \
    yn(bool_expected, f'LineSegment.containsPoint ⟨1e-9, 1e-1⟩ {lean(segment)} {lean(point)}')
T[G, 'intersect_line_segment'] = lambda segment_a, segment_b, array_expected: \
    f'tvec (LineSegment.intersectLineSegment {lean(segment_a)} {lean(segment_b)} true dflt) {lean(array_expected)}'
T[G, 'intersect_line_segment_failure'] = lambda segment_a, segment_b, message_expected: \
    raises(f'LineSegment.intersectLineSegment {lean(segment_a)} {lean(segment_b)} true dflt', message_expected)
for B, var in (('circle', 'circle'), ('sphere', 'sphere')):
    M = B.capitalize()
    T[B, 'failure'] = lambda point, radius, message_expected, M=M: raises(f'{M}.new {lean(point)} ({lean(radius)} : F)', message_expected)
    T[B, 'distance_point'] = lambda M=M, var=var, **k: f'tval ({M}.distancePoint {lean(k[var])} {lean(k["point"])}) {lean(k["dist_expected"])}'
    T[B, 'contains_point'] = lambda M=M, var=var, **k: yn(k['bool_expected'], f'{M}.containsPoint dflt {lean(k[var])} {lean(k["point"])}')
    T[B, 'project_point'] = lambda M=M, var=var, **k: f'tvec ({M}.projectPoint {lean(k[var])} {lean(k["point"])}) {lean(k["point_expected"])}'
    T[B, 'project_point_failure'] = lambda M=M, var=var, **k: \
        raises(f'{M}.projectPoint {lean(k[var])} {lean(k["point"])}', "The point must not be the center of the circle or sphere.")
    T[B, 'best_fit'] = lambda M=M, var=var, **k: \
        f'ok ({M}.bestFit {lean(k["points"])}) fun c => tightL c.point {lean(k[var + "_expected"].a[0])} && tight c.radius {lean(k[var + "_expected"].a[1])}'
    T[B, 'best_fit_failure'] = lambda points, message_expected, M=M: raises(f'{M}.bestFit {flm(points)}', message_expected)
    T[B, 'intersect_line'] = lambda M=M, var=var, **k: \
        f'tpair ({M}.intersectLine {lean(k[var])} {lean(k["line"])}) {lean(k["point_a_expected"])} {lean(k["point_b_expected"])}'
    T[B, 'intersect_line_failure'] = lambda M=M, var=var, **k: \
        raises(f'{M}.intersectLine {lean(k[var])} {lean(k["line"])}', f"The line does not intersect the {var}.")
T['circle', 'from_points'] = lambda point_a, point_b, point_c, circle_expected: \
    f'ok (Circle.fromPoints none {lean(point_a)} {lean(point_b)} {lean(point_c)}) fun c => tightL c.point {lean(circle_expected.a[0])} && tight c.radius {lean(circle_expected.a[1])}'
T['circle', 'from_points_failure'] = lambda point_a, point_b, point_c, message_expected: \
    raises(f'Circle.fromPoints none {lean(point_a)} {lean(point_b)} {fl(point_c)}', message_expected)
T['circle', 'circumference_area'] = lambda radius, circumference_expected, area_expected: \
    f'tight (Circle.circumference (C [0, 0] {lean(radius)})) {lean(circumference_expected)} && tight (Circle.area (C [0, 0] {lean(radius)})) {lean(area_expected)}'
T['circle', 'intersect_circle'] = lambda circle_a, circle_b, point_a_expected, point_b_expected: \
    f'tpair (Circle.intersectCircle {lean(circle_a)} {lean(circle_b)}) {lean(point_a_expected)} {lean(point_b_expected)}'
T['circle', 'intersect_circle_failure'] = lambda circle_a, circle_b, message_expected: raises(f'Circle.intersectCircle {lean(circle_a)} {lean(circle_b)}', message_expected)
T['sphere', 'surface_area_volume'] = lambda radius, surface_area_expected, volume_expected: \
    f'tight (Sphere.surfaceArea (S [0, 0, 0] {lean(radius)})) {lean(surface_area_expected)} && tight (Sphere.volume (S [0, 0, 0] {lean(radius)})) {lean(volume_expected)}'
def rounded_unique(e, pts): return f'tmat (do Pts.unique ((← {e}).map (roundValues 3))) {lean(pts)}'
T['sphere', 'to_points'] = lambda sphere, n_angles, points_expected: rounded_unique(f'Sphere.toPoints {lean(sphere)} {n_angles}', points_expected)
def triangle(test_case):
    c = test_case
    t = '(T ' + ' '.join(lean(p) for p in c.points) + ')'
    out = [f'tval (Triangle.area {t}) {lean(c.area)}', f'tval (Triangle.perimeter {t}) {lean(c.perimeter)}',
           f'tvec (Triangle.multiple (Triangle.length {t}) ["a", "b", "c"]) {lean(list(c.lengths))}',
           f'tmat (Triangle.multiple (Triangle.point {t}) ["A", "B", "C"]) {lean(c.points)}',
           f'tvec (Triangle.multiple (Triangle.angle {t}) ["A", "B", "C"]) {lean([math.radians(a) for a in c.angles])}',
           f'tvec (Triangle.normal {t}) {lean(c.normal)}', f'tvec (Triangle.centroid {t}) {lean(c.centroid)}',
           f'tvec (Triangle.orthocenter {t} true dflt) {lean(c.orthocenter)}',
           f'ok (Triangle.classify dflt {t}) (· == {lean(c.classification)})', yn(c.is_right, f'Triangle.isRight dflt {t}')]
    for v, a in zip('ABC', c.altitudes):
        out.append(f'ok (Triangle.altitude {t} "{v}") fun l => yes (Line.isClose ⟨1e-9, 1e-3⟩ l (.line {lean(a)}))')
    return out
T['triangle', 'triangle'] = triangle
T['triangle', 'failure_different_dimensions'] = lambda array_a, array_b, array_c: \
    raises(f'Triangle.new {lean(array_a)} {lean(array_b)} {fl(array_c)}', "The points must have the same dimension.")
T['triangle', 'failure_collinear_points'] = lambda array_a, array_b, array_c: \
    raises(f'Triangle.new {lean(array_a)} {lean(array_b)} {fl(array_c)}', "The points must not be collinear.")
T['triangle', 'failure_point'] = lambda string: [raises(f'Triangle.{m} (T [0, 0] [0, 1] [1, 0]) {lean(string)}', "The vertex must be 'A', 'B', or 'C'.")
                                                 for m in ('point', 'angle', 'altitude')]
T['triangle', 'failure_line'] = lambda string: [raises(f'Triangle.{m} (T [0, 0] [0, 1] [1, 0]) {lean(string)}', "The side must be 'a', 'b', or 'c'.")
                                                for m in ('line', 'length')]
Y = 'cylinder'
T[Y, 'failure'] = lambda point, vector, radius, message_expected: raises(f'Cylinder.new {lean(point)} {lean(vector)} ({lean(radius)} : F)', message_expected)
T[Y, 'from_points'] = lambda array_a, array_b, radius, cylinder_expected: \
    f'ok (Cylinder.fromPoints {lean(array_a)} {lean(array_b)} ({lean(radius)} : F)) fun c => ' \
    f'tightL c.point {lean(cylinder_expected.a[0])} && tightL c.vector {lean(cylinder_expected.a[1])} && exactly c.radius {lean(cylinder_expected.a[2])}'
T[Y, 'properties'] = lambda cylinder, length_expected, volume_expected: \
    f'tight (Cylinder.length {lean(cylinder)}) {lean(length_expected)} && tight (Cylinder.volume {lean(cylinder)}) {lean(volume_expected)}'
T[Y, 'surface_area'] = lambda cylinder, lateral_surface_area_expected, surface_area_expected: \
    f'tight (Cylinder.lateralSurfaceArea {lean(cylinder)}) {lean(lateral_surface_area_expected)} && tight (Cylinder.surfaceArea {lean(cylinder)}) {lean(surface_area_expected)}'
T[Y, 'cylinder_is_point_within'] = lambda cylinder, point, bool_expected: yn(bool_expected, f'Cylinder.isPointWithin {lean(cylinder)} {lean(point)}')
T[Y, 'intersect_cylinder_line'] = lambda cylinder, line, array_expected_a, array_expected_b: \
    f'tpair (Cylinder.intersectLine {lean(cylinder)} {lean(line)} (some 9) true) {lean(array_expected_a)} {lean(array_expected_b)}'
T[Y, 'intersect_cylinder_line_with_caps'] = lambda cylinder, line, array_expected_a, array_expected_b: \
    f'tpair (Cylinder.intersectLine {lean(cylinder)} {lean(line)} none false) {lean(array_expected_a)} {lean(array_expected_b)}'
T[Y, 'intersect_cylinder_line_failure'] = lambda cylinder, line, message_expected: raises(f'Cylinder.intersectLine {lean(cylinder)} {lean(line)} none true', message_expected)
T[Y, 'intersect_cylinder_line_with_caps_failure'] = lambda cylinder, line: \
    raises(f'Cylinder.intersectLine {lean(cylinder)} {lean(line)} none false', "The line does not intersect the cylinder.")
T[Y, 'to_points'] = lambda cylinder, n_along_axis, n_angles, points_expected: \
    rounded_unique(f'Cylinder.toPoints {lean(cylinder)} {n_along_axis} {n_angles}', points_expected)
def cyl_fit(points, vector_expected, radius_expected):
    v = vector_expected.a[0]; n = math.sqrt(sum(x * x for x in v))
    return (f'ok (Cylinder.bestFit {lean(points)}) fun c => '
            f'near (Vec.norm c.vector) {lean(n)} && yes (Vec.isParallel dflt c.vector {lean(v)}) && near c.radius {lean(radius_expected)}')
T[Y, 'best_fit'] = cyl_fit
T[Y, 'best_fit_failure'] = lambda points, message_expected: raises(f'Cylinder.bestFit {flm(points)}', message_expected)

SKIP = {('base_array', 'failure_from_different_lengths'): 'a ragged list never becomes an array (error of np.array)',
        ('base_array_1d', 'dimension_of_slice'): 'slices are modelled in Model/Heap.lean',
        ('points', 'dimension'): 'dimension is the row length by construction in the model'}
HEAD = '''import Verif.Tests.Doctests
/-!
# The unit tests of the repository, run on the model

Generated by `tools/unit_tests.py` from `/repo/tests`.  Tests of the fidelity of the model, not proofs: the model at
binary64 is evaluated on every row of the parametrised unit tests of the repository.  A wrong output is a build error.

Not translated:
%s-/

namespace SkSpatial.UnitTests
open SkSpatial.Doctests

/-- Agreement to nine digits (the default of `math.isclose`, with an absolute tolerance for zeros). -/
def tight (x y : F) : Bool := (x - y).abs ≤ 1e-9 * max 1 y.abs
def tightL (x y : List F) : Bool := x.length == y.length && (List.zipWith tight x y).all id
def tightM (x y : List (List F)) : Bool := x.length == y.length && (List.zipWith tightL x y).all id
def tval (r : Res F) (y : F) : Bool := ok r (tight · y)
def tvec (r : Res (List F)) (y : List F) : Bool := ok r (tightL · y)
def tmat (r : Res (List (List F))) (y : List (List F)) : Bool := ok r (tightM · y)
def tpair (r : Res (List F × List F)) (p q : List F) : Bool := ok r fun x => tightL x.1 p && tightL x.2 q
def sameV (r s : Res (List F)) : Bool := ok s (tvec r ·)
def sameM (r s : Res (List (List F))) : Bool := ok s (tmat r ·)
def inf : F := 1 / 0
'''
body, n, seen = [], 0, set()
for m, name, rows in tests:
    if (m, name) in SKIP: continue
    body.append(f'\n-- test_{m}.py: test_{name}')
    for r in rows:
        g = T[m, name](**r)
        for x in (g if isinstance(g, list) else [g]):
            if (m, x) in seen: continue
            seen.add((m, x)); n += 1
            body.append('#guard ' + x)
skips = ''.join(f'* `test_{a}.py::test_{b}`: {w}\n' for (a, b), w in SKIP.items())
skips += '* `test_all_objects.py` (repr), slices of `Points` (`test_dimension_of_slice`)\n'
out = HEAD % skips + '\n'.join(body) + '\n\nend SkSpatial.UnitTests\n'
pathlib.Path('/verif/lean/Verif/Tests/Unit.lean').write_text(out)
print(n, 'guards')
