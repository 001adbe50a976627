# Formal model of scikit-spatial in Lean 4

## 1. Shape of the development

* `lean/Verif/Model/*.lean` - the model, one file per Python module, function by function, every
  definition citing the file and lines of `/repo` it models.  Exceptions are values
  (`Except Err α`, `Err` = ValueError / TypeError / AttributeError / LinAlgError / IndexError / OverflowError with the message).
* The model is **generic in the number type** `K` through the class `PyNum K`
  (`+ - * /`, comparisons, `isFinite`, `sqrt`, `acos`, `atan2`, `sin`, `cos`, `pi`, `rint`).  The same
  definitions are instantiated at
  * `ℝ` (`Inst/Real.lean`) - exact arithmetic: the geometric theorems;
  * `XReal` (`Inst/XReal.lean`) - reals plus NaN, +inf, -inf with IEEE comparison rules: constructor
    validation, NaN behaviour;
  * `rounded A` (`Inst/Rounded.lean`) - `ℝ` with every arithmetic result rounded by a function
    `A.fl : ℝ → ℝ`, and with an arbitrary implementation `A.sum`, `A.dot` of sums and dot products (NumPy and BLAS leave
    the order of the additions open): the theorems C73 onwards say which results survive floating-point rounding and bound the
    error of the others.  `Spec/Rounding.lean` has the standard model of floating-point arithmetic
    (`StdRounding u A`: relative error at most `u`; sums and dot products are backward stable, which every order of
    the additions is, with or without fused multiply-add: `C98_any_order`) and a concrete rounding to nearest even with `p` bits that
    is proved to satisfy it (`roundNearest_std`, `Lemmas/Rounding.lean`).
  * `ieee` (`Spec/Ieee.lean`) - `XReal` with every arithmetic result rounded to IEEE binary64, with gradual underflow and
    overflow (one zero): C96, C97.
  * `NpNum` (`Inst/NpNum.lean`) - `int64` numbers that wrap modulo 2^64 beside (exact) floats, with NumPy's
    promotion rules: what the methods do on integer arrays (C83-C85).
  * `Float` (`Inst/Float.lean`) - binary64, only to run the docstring examples of the repository on the model
    (`Tests/Doctests.lean`, about 200 `#guard`s) and its parametrised unit tests (`Tests/Unit.lean`, 830 `#guard`s,
    generated from `/repo/tests` by `tools/unit_tests.py`); all agree.  These are tests of the model's fidelity, not proofs, and no
    theorem depends on this instance.
* Linear algebra that NumPy/SciPy computes (`matrix_rank`, `svd`, `solve`, `lstsq`, Powell
  `minimize`) is a parameter (`class NumpyExt K`).  Its assumed behaviour over `ℝ` is the class
  `LawfulNumpy` (`Spec/Numpy.lean`), a contract written from the NumPy documentation; the contract is
  proved satisfiable (`exists_lawfulNumpy`, `Lemmas/Svd.lean`).  Nothing at all is assumed about the optimiser.
* `lean/Verif/Spec/*.lean` - the small specification vocabulary: coordinate lists read as vectors of Mathlib's
  `EuclideanSpace ℝ (Fin n)`, lines / planes / solid cylinders as sets, closeness, measures, memory, drawings,
  rounding, printed texts.  Every definition that occurs in a property theorem and is not part of the model is there.
* `lean/Verif/Lemmas/*.lean` - helper lemmas.
* `lean/Verif/Props/*.lean` - the property theorems (`Cnn_...`) with, beside them, `example`s showing that
  a concrete case meets the hypotheses.
* `seeded/LOG.jsonl` - every attempt to break the model and which theorems noticed.
* `tools/props.py`, `tools/manifest.py` generate `properties.jsonl` and `MANIFEST.json`.

How to read a theorem: `arr x` is the coordinate list of the point `x : E n`; `rows P` the list of coordinate
lists of a list of points; `.ok v` means "returns `v`", `.error e` "raises `e`"; objects enter through their
constructors (`Line.new (arr p) (arr v) = .ok L`), so no theorem speaks about objects a user cannot build.

## 2. What each property models and how it is proved

| id | modelled | proof |
|----|----------|-------|
| C01, C02 | n-d arrays (shape + flat data) over any `PyNum`, in particular `XReal`; constructor validation in code order | case analysis, both directions |
| C03 | `set_dimension` 1D/2D on lists, all integers `d` | list reasoning |
| C04, C05 | constructors | case analysis; C05 NaN radius: negation proved over `XReal` |
| C06-C17 | `Vector` methods on coordinate lists of any length | bridge to `EuclideanSpace`, then Mathlib inner-product facts; C10 also over arbitrary rounding |
| C18 | `np.unique(axis=0)` as sorted insertion | induction on the list |
| C19, C20 | column means, norms, max | induction on the list of rows |
| C21, C22 | `matrix_rank` = number of singular values above tol (contract) | Mathlib `LinearMap.singularValues` |
| C23-C30 | `Line` | Euclidean bridge |
| C31, C40 | `best_fit` on an arbitrary SVD satisfying the contract | spectral argument |
| C32 | `transform_coordinates` | list reasoning + bridge |
| C33-C39, C41 | `Plane` | Euclidean bridge; 5x5 system solved symbolically |
| C42-C49 | `Circle`, `Sphere` | coordinates + `nlinarith`/`field_simp`; measures from Mathlib |
| C50-C55 | `Cylinder`, incl. the algebraic part of `best_fit` for an arbitrary optimiser | decomposition along the axis |
| C56-C62 | `Triangle` | law of cosines, Mathlib Euclidean geometry |
| C63-C65 | `LineSegment` | cosine characterisation |
| C66, C67 | `measurement.py` | ring identities, induction over vertex lists |
| C68 | heap of buffers with aliasing views; operations = constructors, `round`, item assignment, in-place addition, indexing, slicing, attribute access, arithmetic, copy | invariant by induction over histories |
| C69, C70, C71 | `__array_wrap__`, `plotter`, `is_close` | case analysis |
| C72 | plot methods as functions from an object to the list of shapes drawn; `plot_2d`/`plot_3d` | case analysis, mesh theorems reused |
| C82 | `norm(ord=...)` as documented for `numpy.linalg.norm` | Mathlib's `PiLp` norms |
| C83-C85 | the same model run on `int64` arrays | congruences modulo 2^64, then reduction to the real case |
| C86 | `__repr__` of all classes for an arbitrary array format; NumPy's integer format | unique readability: cutting texts at parentheses |
| C87 | methods as operations on the heap of C68 (`call`: reads arrays, allocates one) | C68's invariant |
| C88 | the model run in binary64 (`roundNearest 53`) on concrete inputs: counterexamples to universal claims | every rounding evaluated by a generated lemma (tools/binary64.py emits statements; Lean proves them) |
| C101 | the model over `ℝ`, arguments moved by an arbitrary similarity (`Spec/Symmetry.lean`) | closed forms commute with similarities; sets (spheres, cylinders, lines) as images; default rank tolerance via `C21_affine_rank_default` |
| C102 | the model over `ℝ`, two descriptions of one set (`lineSet p d = lineSet q e`, `planeSet`, `solidCyl`, `segment`) | closed forms depend on the set only; same sets give proportional vectors |
| C103 | the model over `ℝ`, permuted lists; `unique` and rank predicates also over every rounded arithmetic | `np.unique` is a function of the set of rows (sorted, no repetitions); minimality of the fits; symmetric closed forms |
| C104 | the same model run with rounded arithmetic that commutes with powers of two and signs (`Spec/Scaling.lean`; proved of `roundNearest p`), on arguments and on rescaled arguments | a relational calculus: each operation maps related arguments to related results (`Lemmas/Scaling*.lean`); the defect by the range calculus of C96 |
| C105 | the same model run with rounded arithmetic, and a `matrix_rank` that is only backward stable (`StableNumpy η`, `Spec/Stable.lean`) | the root spread in a direction is Lipschitz in the matrix; Courant-Fischer for the perturbed matrix; error of the rounded centring |
| C106 | the same model run with rounded arithmetic, and an `svd` that is only backward stable (`IsStableSVD`, `Spec/Stable.lean`) | Eckart-Young for one direction (Lagrange/Parseval along the singular vectors), fits are Lipschitz in the matrix, error of the rounded centring from C105 |
| C107 | `Model/PyFloat.lean`: the methods with `radius ** 2` as CPython evaluates it on floats, in an arbitrary arithmetic | both programs agree step by step up to the power; range calculus of C97 for binary64 |
| C108 | `Line.isCoplanar`, `Line.intersectLine` run with rounded arithmetic and a `matrix_rank` that is only backward stable | C105 for the four rounded points, plus their own rounding; the defect by computing the rounded centred matrix and bounding its smallest singular value from below |
| C109 | `Line.intersectLine`, `Line.distanceLine` run with rounded arithmetic | error of the rounded cross products (C91), perturbation of a quotient (C94), the common perpendicular (C27) |
| C110 | `Sphere.intersectLine`, `Circle.intersectLine`, `Circle.intersectCircle` run with rounded arithmetic | error of the rounded discriminant, `|√x - √y| ≤ |x - y| / √y`; the chord through the foot of the center; both nearness to the exact points and nearness of every returned point to both objects |
| C111 | `Cylinder.intersectLine` (infinite), `solveQuadratic`, `roundDigits` run with rounded arithmetic | relative error of the components orthogonal to the axis, of the coefficients and of the discriminant; the distance of the points of the line from the axis is the root of a quadratic; the defect by evaluating all binary64 operations (`Lemmas/Binary64Cyl.lean`) |
| C112 | `Cylinder.intersectLine` (finite), `intersectCap`, `betweenCapPlanes`, `Plane.intersectLine` run with rounded arithmetic | away from the rims every comparison of the rounded run has the outcome of the exact run, so C52 and C111 apply; the backward bound by following each returned point to the cap or lateral surface it comes from; the defects by evaluating all binary64 operations (`Lemmas/Binary64Rim.lean`) |
| C113 | `projectPoints`, `distancePoints`, `sumSquares`, `Plane.projectVector`, `projectLine`, `Pts.meanCenter` run with rounded arithmetic | the relative-error calculus along each step, induction over the list of points for the sums |
| C114 | `Vec.angleSigned` with any stable 2x2 determinant (`Model/Det.lean`, `Spec/Det.lean`), `angleSigned3d`, `Line.sidePoint`, `differentDirection`, `Line.fromPoints`, `toPoint` with rounded arithmetic | the argument of a complex number with small relative perturbation moves by at most twice the perturbation; sines bounded through the cross product |
| C115 | `Triangle.normal`, `centroid`, `altitude`, `Plane.fromVectors`, `fromPoints`, `cartesian`, `Line.transformPoints` with rounded arithmetic | projection onto a line whose direction is itself rounded; a normal near `v x w` gives a plane near the spanned one |
| C116 | `Circle.fromPointsWith det` (`Model/Det.lean`) with rounded arithmetic, the determinant routine a parameter with the contract `StableDet3 δ` | the squared norms are an affine function of the points of a circle, so the minors are multiples of the area; perturbation of the quotients; the closed form has `δ = 50 u` |
| C117 | `Plane.intersectPlane` with rounded arithmetic and a backward stable `np.linalg.solve` (`StableSolve η`, `Spec/Stable.lean`) | the residual of the 5x5 system is split into the two plane equations and the optimality condition; the multipliers are bounded by the sine of the angle; a vector is determined by its components along `a`, `b`, `a x b` |
| C118 | `Circle.bestFit`, `Sphere.bestFit` with rounded arithmetic and a backward stable `np.linalg.lstsq` (`StableLstsq η`, `Spec/Lstsq.lean`) | the exact best circle satisfies the normal equations (first-order condition); perturbation of full-rank least squares; the radicand and its root |
| C119 | `Triangle.orthocenter` in 2D with rounded arithmetic (`Props/Rounding29.lean`) | the computed altitudes start at the vertices and have directions within `δ` of the exact ones (C115); Cramer's rule for the intersection of two lines with perturbed directions |
| C120 | `Sphere/Plane/Cylinder.toMesh`, `toPoints` with rounded arithmetic (`Props/Rounding30.lean`), against the exact meshes of `Spec/Mesh.lean` | error of `np.linspace`; Lipschitz bounds of the parametrisations; the cross product with a basis vector has no cancellation; residual of the solved plane equation |
| C121 | `LineSegment.intersectLineSegment`, `Line.isClose`, `Plane.isClose` with rounded arithmetic (`Props/Rounding31.lean`) | the rounded intersection is near the exact one, the rounded containment test is within its tolerance; the distance and cosine tests with their errors |
| C122 | the methods of segments, lines, planes, triangles, circles and points on IEEE binary64 numbers (`Props/Ieee7.lean`–`Ieee12.lean`) | every intermediate result is a multiple of `2^-m` of magnitude at most `2^M`, with bounds on `m` and `M` propagated through each operation, so neither overflow nor underflow occurs; not covered: `Line.sum_squares`, `orthocenter`, `normalize_distance` of all-zero points (0/0), `intersect_line` with another tolerance, `Circle.from_points`. The rank routine is an arbitrary function of floats; over the reals it is that function composed with the embedding (`viaFloats`) |
| C123 | error bounds of 15 methods on IEEE binary64 numbers (`Props/IeeeErrors.lean`) | the rounding error theorems (C73–C121) for `u = 2^-53`, transported by the equality of C96/C122 between the IEEE run and the run with unbounded exponents |
| C124 | error bounds of predicates, measures, segments, triangles and batch methods on IEEE binary64 numbers (`Props/IeeeErrors2.lean`) | as C123; the objects are those accepted by the constructors run in IEEE arithmetic |
| C125 | `Cylinder.intersect_line` on IEEE binary64 numbers of magnitude 0 or 2^-20 … 2^20 (`Spec/Ieee.lean: Everyday`; `Props/Ieee13.lean`, `Props/IeeeErrors3.lean`) | the range of C96 (2^±50) does not exclude underflow of the discriminant, so the range is smaller; every intermediate result is shown to be a multiple of 2^-1074 or at least 2^-1022 and at most 2^1023; then C111/C112 are transported |
| C126 | `LineSegment.intersect_line_segment` and `Triangle.orthocenter` under rounding in dimension ≤ 3 (`Props/Rounding32.lean`) | the sine of the angle as the distance of a unit vector from the multiples of the other one, its perturbation, and C109 for the lines with the perturbed directions; the 2D results C119, C121 used determinants |
| C127 | `LineSegment.intersect_line_segment` in IEEE binary64 (`Props/Ieee14.lean`) | range analysis up to the point of intersection (coordinates are multiples of 2⁻⁵⁰² below 2⁴⁵¹), Cauchy–Schwarz for the quotient in the cosine, and a case distinction: a cosine below 2⁻⁹⁰⁰ may underflow, but is not close to −1 either way; then C126. The hypothesis about NumPy is met by real routines seen as routines on floats (`onFloats`). `Triangle.orthocenter` is not covered: the bounds on its intermediate results are too wide to exclude underflow |
| C128 | `Circle.from_points` in IEEE binary64 (`Props/Ieee15.lean`) | range analysis of the four determinants (closed form; NumPy's LU is not modelled in binary64); if the first one is 0 the centre is not finite and `Circle(...)` raises; otherwise equal to the run with unbounded exponents, and C116 |
| C129 | `Plane.intersect_plane` in IEEE binary64 (`Props/Ieee16.lean`) | range analysis of the matrix and the cross product; `np.linalg.solve` is an arbitrary routine on floats: if the first three entries of its answer are finite the result is the one with unbounded exponents, else `Point(...)` raises; then C117 |
| C130 | vectors, lines, planes, segments, `area_triangle`, `volume_tetrahedron` in IEEE binary64, without bounds on the numbers (`Spec/Sign.lean`, `Props/Ieee17.lean`) | rounding to binary64 is odd, so every operation commutes with changes of sign, also on infinities and NaN; the calculus is lifted through the methods, exceptions included |
| C99, C100 | the model for an arbitrary arithmetic `K` | a calculus of the lengths accepted by, and exceptions raised by, each step (`Lemmas/Raises.lean`) |
| C96, C97 | the same model run in IEEE binary64 with overflow and underflow | a range calculus (`Rng m M x`: multiple of 2^-m, magnitude at most 2^M) through every operation: in range, binary64 rounding is 53-bit rounding; out of range, sums of non-negative terms with an infinite one |
| C73-C81, C89-C95, C98 | the same model run with rounded arithmetic | relative-error calculus: a computed value is `x * exp δ` with `|δ| <= k * (-log (1-u))`, propagated through products, quotients, roots and sums by induction over the coordinates |

Every property can be expressed in the model.  Where a natural reading of a property is false of the code, the
property records the behaviour that is true, and a theorem named `..._defect` proves the failure (section 5).

## 3. Trusted base

* Lean 4.33.0's kernel, and Mathlib's definitions used in statements (`EuclideanSpace`, `inner`, `dist`, `volume`).

* Axioms: every property theorem depends on at most `propext`, `Classical.choice`, `Quot.sound`
  (`tools/axioms.sh` prints them).  There are no axioms of our own, no compiled evaluation.
* The reading of the Python code: each model definition cites the lines it models.  The code was not run.
* The `StableNumpy η` contract (C105, C106, C108, C109, `Spec/Stable.lean`): `svd` returns factors near an exact decomposition of a nearby matrix (`IsStableSVD`), `matrix_rank` counts the singular values of a nearby matrix, as
  LAPACK guarantees in floating point; `η = 0` is the exact contract, so it is consistent too.
* The `StableSolve η` contract (C117): `np.linalg.solve` returns the exact solution for a matrix within `η ‖A‖` of `A`, if all these matrices are invertible; `η = 0` is the exact contract
  (`StableSolve.of_lawful`).
* The `StableLstsq η` contract (C118): `np.linalg.lstsq` returns an exact least-squares solution for a matrix and a right-hand side within relative `η`, if no such matrix has a singular value
  near the cut-off; `η = 0` is the exact contract (`StableLstsq.of_lawful`).
* The `LawfulNumpy` contract: theorems that mention `[NumpyExt ℝ] [LawfulNumpy]` assume that NumPy's linear algebra
  returns the mathematically exact result.  It has a proved instance, so no theorem is vacuous because of it.
* Semantics of Python/NumPy primitives as written down in `Model/Num.lean` and `Model/Array.lean`: `math.isclose`
  (CPython's algorithm, including its ValueError for negative tolerances), `np.sign`, `np.clip`/`min`/`max`,
  broadcasting of 1D arrays, `np.dot`, `np.cross` (3D), `np.linspace`, `np.unique(axis=0)`, `math.acos`/`math.sqrt`
  domain errors, round-half-even.

## 4. What is and is not modelled

Modelled, all branches: everything in `_functions.py` except the decorator `np_float` (it converts the type of a
result, not its value), `measurement.py`, `transformation.py`, `plotting.py` (as far as the calls to Matplotlib),
`objects/*.py`: all classes, constructors, methods and private helpers.

Not modelled, or simplified:

* NumPy's array printing is a parameter of the model of `__repr__` (C86), with its format for short integer arrays as
  an instance; `np_float` (converts a result to `np.float64`), docstrings, typing are not modelled.
* `Vector.norm(**kwargs)`: `ord` is modelled (C82), `axis` and `keepdims` are not.  `Plane.best_fit`/`Line.best_fit(**kwargs)`: `tol` and
  `full_matrices` are modelled, other keyword arguments of `np.linalg.svd` (`compute_uv`, `hermitian`) are not.
  Keyword arguments of `intersect_line` etc. are the tolerances `rel_tol`, `abs_tol`; unknown keywords are not modelled.
* Integer arrays: C83-C85 are about `int64` arrays for the methods named there; elsewhere numbers are floats.  Other
  dtypes (object, complex, bool, unsigned, 32 bits) are not modelled; in the heap model (C68) all entries are floats.
* `x ** 2` is `x * x` and `x ** 3` is `x * x * x` (the C function `pow` may differ in the last bit).  `OverflowError` of `**` on Python floats is modelled in
  `Model/PyFloat.lean` (C107); the other files have the behaviour of `np.float64`.
* Matplotlib (C72 ends at the arguments passed to it), figure creation, styling keywords.
* The optimiser inside `Cylinder.best_fit` is an arbitrary function (so results hold for whatever it returns);
  the other parts of `best_fit` are modelled step by step.
* IEEE binary64: the geometric theorems C06-C67 are about exact arithmetic on reals.  NaN and infinities are
  covered where the property is about them (C01, C02, C05, C69).  Rounding is covered by C73 onwards for the
  methods named there, in the standard model (no overflow, no underflow).  C96 proves that for coordinates between 2^-50 and
  2^50 in magnitude (and zero) the methods named there neither overflow nor underflow in IEEE binary64, so that the results of
  the standard model carry over exactly; C97 says what goes wrong outside.  Signed zeros are not modelled.  `sin`, `cos`, `acos`,
  `atan2` and `pi` are assumed correctly rounded in these instances.  Sums and dot products are evaluated in any order in C73-C81, C89-C95 and C98 (one order per length and values: two
  calls on equal lists give equal results), and from left to right in C88, C96 and C97.
* `np.linalg.det` is modelled by its closed form; the algorithm (LU factorisation, product of pivots) is covered by C114, where the 2x2 determinant is any
  routine with a bounded error (`StableDet`, C114; `StableDet3`, C116).
* Memory: C68 has its own model of aliasing; in the other files values are immutable.
* Performance, warnings (`RuntimeWarning`), and Python's dynamic attribute machinery are not modelled.

## 5. Defects found (proved)

| theorem | what goes wrong |
|---------|-----------------|
| C27 (distance_line) | lines with |cos| >= 1 - 1e-9 are treated as parallel: wrong distance |
| C59 | `orthocenter` raises for thin but valid triangles |
| C63 | arrays of length 1 broadcast silently; `LineSegment` rejects distinct endpoints far from the origin |
| C05 | `Circle`/`Sphere` accept a NaN radius |
| C47 | `Circle.best_fit` is wrong far from the origin (`lstsq` cuts off a singular value) |
| C37 | `plane.project_line` with `abs_tol > 0` may keep a direction that leaves the plane |
| C60 | `classify` calls a triangle with two close pairs of sides that are not all close 'scalene' |
| C64 | `LineSegment.contains_point` accepts points 1e-5 segment lengths off the segment |
| C55 | `Cylinder.best_fit` returns a cylinder too short for the points; its initial direction is mirrored |
| C70 | `LineSegment.plotter` raises AttributeError (no `dimension`) |
| C68 | constructors alias their arguments: writing to the caller's array bypasses validation |
| C87 | `plane.project_line(line)` for a line parallel to the plane shares its direction array with `line` |
| C88 | binary64: a point projected onto a line, plane or circle need not be `contains_point` with the default tolerances |
| C88 | binary64: `triangle.angle` raises 'math domain error' for some valid triangles (no clipping of the cosine) |
| C88 | binary64: `cylinder.is_point_within` is False for the centre of the cylinder's own top cap |
| C72 | `Triangle.plot_*` with an unknown `part` silently draws nothing |
| C98 | `is_perpendicular` depends on the order in which NumPy/BLAS adds: same vectors, different answers |
| C102 | `distance_line` and `is_close` of nearly parallel lines depend on which point and direction describe the lines |
| C103 | `is_close` and `distance_line` of nearly parallel lines are not symmetric; in binary64 the centroid depends on the order of the points |
| C104 | `circle.intersect_line` raises `ValueError` in binary64 for every line whose point has both coordinates of magnitude at least 2^55: it adds the unit direction to the point, which has no effect |
| C105 | with the default tolerance `are_collinear` is `False`, and `Triangle` accepts the vertices, for the collinear points (10^6, 0), (10^6+1, 1), (10^6+3, 3) in binary64: the tolerance is relative to the spread of the points, the rounding error of the centroid to their distance from the origin |
| C106 | two far-away points, (2^53, 0, 0) and (2^53+2, 1, 0), are judged not collinear in binary64: `Plane.best_fit` returns one of the many planes through them, and with `full_matrices=False` raises `IndexError` |
| C107 | with a radius given as a Python float of 2^512 (about 1.3e154) or more, `area`, `surface_area`, `volume` and `intersect_line` raise `OverflowError`, which the documentation does not mention; with a `np.float64` they return `inf` or raise `ValueError` |
| C108 | the lines through (10^6, 0, 0) along (1, 3, 0) and along (0, 0, 3) are judged not coplanar in binary64, and `intersect_line` raises `ValueError`: the default tolerance of `matrix_rank` is below the rounding error of the centroid |
| C111 | `Cylinder([0,0,0],[1,1,0],1).intersect_line(Line([0,0,0],[1,1,0]), infinite=True)` returns two points 6e15 away in binary64 although the line is the axis: the check `a == 0` for parallel lines is defeated by rounding; a negative `n_digits` makes it raise for every line |
| C112 | `Cylinder([0,0,0],[0,0,1],2).intersect_line(Line([17,0,4],[55,0,11]), infinite=False)` raises in binary64 although the line passes through the cylinder from `(2,0,1)` to `(-2,0,0.2)`; `Cylinder([0,0,0],[0,0,3],2).intersect_line(Line([8,2,8],[6,2,5]), infinite=False)` returns `(2,0,3)` twice although the other end is `(-1.6,-1.2,0)` |
| C121 | `line.is_close(other, abs_tol=s)` is `True` for lines through the same point at any angle if the square of the first direction is at most `s`, e.g. `Line([0,0],[1e-4,0]).is_close(Line([0,0],[0,1]), abs_tol=1e-8)`: `abs_tol` is also the threshold for a direction to be the zero vector |
| C73 | with underflow, tiny non-zero vectors are treated as zero |
| C97 | binary64 overflow: for a finite vector with a coordinate >= 2^512, `unit()` is silently the zero vector, `is_parallel` with itself is False, a plane with this normal contains every point, a line with this direction projects every point to its own base point, and `Line(0, v).distance_point(v)`, `contains_point`, `sum_squares` raise `AttributeError` (an array with NaN is not wrapped into a `Point`); underflow: vectors with coordinates <= 2^-538 are taken for zero |
| C99 | a point `[x]` of dimension 1 is silently taken for `[x, ..., x]`; `circle.intersect_line` takes a one-dimensional line for the diagonal |
| C53 | `n_digits=0` is treated as "no rounding" by the quadratic solver |
| C83, C84, C85 | integer arrays overflow silently: `Vector([2**32, 0]).is_zero()` is `True` and `Line([0, 0], [2**32, 0])` raises; the angle between `[2**32, 0]` and `[2**31, 0]` is pi; the triangle (0,0), (2^32,0), (0,2^32) has area 0; `volume_tetrahedron` can be negative; the distance between `[-2**63]` and `[2**63 - 1]` is 1 |
