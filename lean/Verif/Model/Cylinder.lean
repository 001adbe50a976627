import Verif.Model.Plane
/-! # `src/skspatial/objects/cylinder.py` -/

namespace SkSpatial
variable {K : Type} [PyNum K]
namespace Cylinder

/-- `Cylinder(point, vector, radius)` (cylinder.py:98-116). -/
def new (point vector : List K) (radius : K) : Res (Cylinder K) := do
  let p ← new1D point
  let v ← new1D vector
  if p.length ≠ 3 then .error (.valueError "The point must be 3D.")
  else if v.length ≠ 3 then .error (.valueError "The vector must be 3D.")
  else do
    let z ← Vec.isZero Tol.default v
    if z then .error (.valueError "The vector must not be the zero vector.")
    else if !((zero : K) <. radius) then .error (.valueError "The radius must be positive.")
    else pure ⟨p, v, radius⟩

/-- `Cylinder.from_points(point_a, point_b, radius)` (cylinder.py:124-154). -/
def fromPoints (a b : List K) (radius : K) : Res (Cylinder K) := do
  let ab ← Vec.fromPoints a b
  new a ab radius

/-- `cylinder.length()` (cylinder.py:156-181). -/
def length (c : Cylinder K) : K := Vec.norm c.vector

/-- `cylinder.lateral_surface_area()` (cylinder.py:183-206). -/
def lateralSurfaceArea (c : Cylinder K) : K := two *. PyNum.pi *. c.radius *. length c

/-- `cylinder.surface_area()` (cylinder.py:208-233). -/
def surfaceArea (c : Cylinder K) : K := lateralSurfaceArea c +. two *. PyNum.pi *. sq c.radius

/-- `cylinder.volume()` (cylinder.py:235-261). -/
def volume (c : Cylinder K) : K := PyNum.pi *. sq c.radius *. length c

/-- `_between_cap_planes(cylinder, point)` (cylinder.py:698-703). -/
def betweenCapPlanes (c : Cylinder K) (point : List K) : Res Bool := do
  let base ← Plane.new c.point c.vector
  let d ← Plane.distancePointSigned base point
  pure ((zero : K) <=. d && d <=. d && d <=. length c)

/-- `cylinder.is_point_within(point)` (cylinder.py:263-308). -/
def isPointWithin (c : Cylinder K) (point : List K) : Res Bool := do
  let axis ← Line.new c.point c.vector
  let d ← Line.distancePoint axis point
  let withinRadius := d <=. c.radius
  let between ← betweenCapPlanes c point
  pure (withinRadius && between)

/-- `_intersect_line_with_infinite_cylinder` (cylinder.py:706-731). -/
def intersectInfinite (c : Cylinder K) (l : Line K) (nDigits : Option Int) :
    Res (List K × List K) := do
  let vc ← Vec.unit c.vector
  let vl ← Vec.unit l.direction
  let deltaP ← Vec.fromPoints c.point l.point
  let lc ← dot vl vc
  let perpL ← vsub vl (smul lc vc)
  let perpL ← wrapped "norm" perpL
  let a := sq (Vec.norm perpL)
  let pc ← dot deltaP vc
  let perpP ← vsub deltaP (smul pc vc)
  let lp ← dot perpL perpP
  let b := two *. lp
  let perpP ← wrapped "norm" perpP
  let cc := sq (Vec.norm perpP) -. sq c.radius
  let X ← (match solveQuadratic a b cc nDigits with
    | .ok x => .ok x
    | .error (.valueError _) => .error (.valueError "The line does not intersect the cylinder.")
    | .error e => .error e)
  let pa ← vadd l.point (smul X.1 vl)
  let pb ← vadd l.point (smul X.2 vl)
  let pa ← new1D pa
  let pb ← new1D pb
  pure (pa, pb)

/-- The local function `_intersect_cap` (cylinder.py:737-743): `ValueError` becomes `None`. -/
def intersectCap (c : Cylinder K) (l : Line K) (cap : Plane K) : Res (Option (List K)) :=
  match Plane.intersectLine Tol.default cap l with
  | .error (.valueError _) => .ok none
  | .error e => .error e
  | .ok p => do
    let p ← wrapped "distance_point" p
    let d ← Pt.distancePoint p cap.point
    pure (if d <=. c.radius then some p else none)

/-- `_intersect_line_with_caps` (cylinder.py:734-752). -/
def intersectCaps (c : Cylinder K) (l : Line K) : Res (Option (List K) × Option (List K)) := do
  let base ← Plane.new c.point c.vector
  let topPoint ← vadd c.point c.vector
  let top ← Plane.new topPoint c.vector
  let pBase ← intersectCap c l base
  let pTop ← intersectCap c l top
  pure (pBase, pTop)

/-- `_intersect_line_with_finite_cylinder` (cylinder.py:755-777). -/
def intersectFinite (c : Cylinder K) (l : Line K) (nDigits : Option Int) :
    Res (List K × List K) := do
  let (pBase, pTop) ← intersectCaps c l
  match pBase, pTop with
  | some pb, some pt => pure (pb, pt)
  | _, _ => do
    let (a, b) ← intersectInfinite c l nDigits
    let cap : Option (List K) := match pBase with
      | some p => some p
      | none => pTop
    let inA ← betweenCapPlanes c a
    let a' : Option (List K) := if inA then some a else cap
    let inB ← betweenCapPlanes c b
    let b' : Option (List K) := if inB then some b else cap
    match a', b' with
    | some a, some b => pure (a, b)
    | _, _ => .error (.valueError "The line does not intersect the cylinder.")

/-- `cylinder.intersect_line(line, n_digits, infinite)` (cylinder.py:310-409). -/
def intersectLine (c : Cylinder K) (l : Line K) (nDigits : Option Int) (infinite : Bool) :
    Res (List K × List K) :=
  if Line.dimension l ≠ 3 then .error (.valueError "The line must be 3D.")
  else if infinite then intersectInfinite c l nDigits
  else intersectFinite c l nDigits

/-- `cylinder.to_mesh(n_along_axis, n_angles)` (cylinder.py:411-478). -/
def toMesh (c : Cylinder K) (nAlongAxis nAngles : Nat) :
    Res (List (List K) × List (List K) × List (List K)) := do
  let vAxis ← Vec.unit c.vector
  let vAxis ← wrapped "different_direction" vAxis
  let vDiff ← Vec.differentDirection Tol.default vAxis
  let u1 ← Vec.cross vAxis vDiff
  let u1 ← Vec.unit u1
  let u2 ← Vec.cross vAxis u1
  let u2 ← Vec.unit u2
  let ts := linspace zero (length c) nAlongAxis
  let thetas := linspace zero (two *. PyNum.pi) nAngles
  let grid := fun (i : Nat) => thetas.map fun th => ts.map fun t =>
    c.point.getD i zero +. vAxis.getD i zero *. t +. c.radius *. PyNum.sin th *. u1.getD i zero
      +. c.radius *. PyNum.cos th *. u2.getD i zero
  pure (grid 0, grid 1, grid 2)

/-- `cylinder.to_points(n_along_axis=..., n_angles=...)` (_mixins.py:14-54). -/
def toPoints (c : Cylinder K) (nAlongAxis nAngles : Nat) : Res (List (List K)) := do
  let (X, Y, Z) ← toMesh c nAlongAxis nAngles
  newPoints (meshToPoints X Y Z)

/-! ### `Cylinder.best_fit` -/

/-- `_compute_projection_matrix(direction)` (cylinder.py:551-552). -/
def projectionMatrix (w : List K) : List (List K) := matSub (identity 3) (outer w w)

/-- `_compute_skew_matrix(direction)` (cylinder.py:554-561). -/
def skewMatrix (w : List K) : List (List K) :=
  let w0 := w.getD 0 zero
  let w1 := w.getD 1 zero
  let w2 := w.getD 2 zero
  [[zero, PyNum.neg w2, w1], [w2, zero, PyNum.neg w0], [PyNum.neg w1, w0, zero]]

/-- The list `input_samples` (cylinder.py:572, 585). -/
def samples (w : List K) (ps : List (List K)) : List (List K) :=
  ps.map fun x => matVec (projectionMatrix w) x

/-- `_compute_a_matrix(input_samples)` (cylinder.py:563-564). -/
def aMatrix (ys : List (List K)) : List (List K) :=
  (ys.map fun y => outer y y).foldl matAdd (zeros 3 3)

/-- `_compute_a_hat_matrix(a_matrix, skew_matrix)` (cylinder.py:566-567). -/
def aHatMatrix (A S : List (List K)) : List (List K) := matMul S (matMul A (transposeRows S))

/-- Python's `sum` of a list of 3-vectors (starting from `0`, broadcast). -/
def sumVecs (vs : List (List K)) : List K :=
  vs.foldl (List.zipWith PyNum.add) (List.replicate 3 zero)

/-- The vector `v` of `_compute_g` (cylinder.py:577-579), the same expression as `_compute_center`
(cylinder.py:582-594) before `Point(...)`. -/
def fitCenter (w : List K) (ps : List (List K)) : List K :=
  let ys := samples w ps
  let A := aMatrix ys
  let Ahat := aHatMatrix A (skewMatrix w)
  sdiv (matVec Ahat (sumVecs (ys.map fun y => smul (dotv y y) y))) (trace (matMul Ahat A))

/-- `_compute_g(direction, points)` (cylinder.py:569-580). -/
def fitG (w : List K) (ps : List (List K)) : K :=
  let ys := samples w ps
  let u := sumL (ys.map fun y => dotv y y) /. PyNum.ofInt ps.length
  let v := fitCenter w ps
  sumL (ys.map fun y => sq (dotv y y -. u -. two *. dotv y v))

/-- `_compute_radius(direction, points)` (cylinder.py:596-602). -/
def fitRadius (w : List K) (ps : List (List K)) : Res K := do
  let center ← new1D (fitCenter w ps)
  let terms ← ps.mapM fun p => do
    let d ← vsub center p
    pure (dotv d (matVec (projectionMatrix w) d))
  pure (PyNum.sqrt (sumL terms /. PyNum.ofInt ps.length))

/-- The tolerance `abs_tol=1e-9` (with the default `rel_tol`) of cylinder.py:608. -/
def tolSpherical : Tol K := ⟨Tol.default.rel, PyNum.ofInt 1 /. PyNum.ofInt 1000000000⟩

/-- `_cartesian_to_spherical(x, y, z)` (cylinder.py:604-612). -/
def cartesianToSpherical (x y z : K) : Res (K × K) := do
  let theta := PyNum.acos (z /. PyNum.sqrt (sq x +. sq y +. sq z))
  let zx ← isclose tolSpherical x zero
  let zy ← (if zx then isclose tolSpherical y zero else pure false)
  let phi := if zx && zy then zero
    else signNum y *. PyNum.acos (x /. PyNum.sqrt (sq x +. sq y))
  pure (theta, phi)

/-- The values of `_spherical_to_cartesian` (cylinder.py:614-618). -/
def sphericalToCartesian (theta phi : K) : List K :=
  [PyNum.cos phi *. PyNum.sin theta, PyNum.sin phi *. PyNum.sin theta, PyNum.cos theta]

/-- `np.argmin`: the first index of a smallest entry. -/
def argmin : List K → Nat
  | [] => 0
  | [_] => 0
  | x :: xs => let i := argmin xs; if xs.getD i zero <. x then i + 1 else 0

/-- `_compute_initial_direction(points)` (cylinder.py:542-549). -/
def initialDirection [NumpyExt K] (centered : List (List K)) : Res (K × K) := do
  let (line, _) ← Line.bestFit centered none true
  let u ← Vec.unit line.direction
  match u with
  | [x, y, z] => cartesianToSpherical x y z
  | _ => .error (.typeError "_cartesian_to_spherical() takes 3 positional arguments")

/-- The direction chosen by the optimiser (cylinder.py:531-537).  Simplification: inside the objective
the validation of `Vector([...])`, which only finite angles reach, is left out. -/
def fitDirection [NumpyExt K] (centered : List (List K)) : Res (List K) := do
  let x0 ← initialDirection centered
  let best := NumpyExt.minimizePowell (fun th ph => fitG (sphericalToCartesian th ph) centered) x0
  new1D (sphericalToCartesian best.1 best.2)

/-- The part of `best_fit` after the direction is known (cylinder.py:538-540 and 633-639). -/
def fitFromDirection (ps centered : List (List K)) (centroid w : List K) : Res (Cylinder K) := do
  let c0 ← new1D (fitCenter w centered)
  let center ← vadd c0 centroid
  let radius ← fitRadius w centered
  let axis ← Line.new center w
  let points1d ← Line.transformPoints axis ps
  let pointA ← Line.projectPoint axis (ps.getD (argmin points1d) [])
  let pointA ← wrapped "distance_point" pointA
  let d ← Pt.distancePoint pointA center
  let len := d *. two
  new pointA (w.map fun x => x *. len) radius

/-- `Cylinder.best_fit(points)` (cylinder.py:480-639). -/
def bestFit [NumpyExt K] (points : List (List K)) : Res (Cylinder K) := do
  let ps ← newPoints points
  if rowDim ps ≠ 3 then .error (.valueError "The points must be 3D.")
  else if ps.length < 6 then .error (.valueError "There must be at least 6 points.")
  else do
    let cop ← Pts.areCoplanar none ps
    if cop then .error (.valueError "The points must not be coplanar.")
    else do
      let (centered, centroid) ← Pts.meanCenter ps
      let w ← fitDirection centered
      fitFromDirection ps centered centroid w

end Cylinder
end SkSpatial
