import Verif.Model.Line
/-! # `_base_sphere.py`, `sphere.py` and `circle.py` in `src/skspatial/objects` -/

namespace SkSpatial
variable {K : Type} [PyNum K]

/-! ## `_BaseSphere` -/

/-- `_BaseSphere.__init__` (_base_sphere.py:17-24). -/
def newBaseSphere (point : List K) (radius : K) : Res (List K × K) := do
  if radius <=. zero then .error (.valueError "The radius must be positive.")
  else do
    let p ← new1D point
    pure (p, radius)

/-- `_BaseSphere.distance_point` (_base_sphere.py:33-37). -/
def baseDistancePoint (center : List K) (radius : K) (point : List K) : Res K := do
  let d ← Pt.distancePoint center point
  pure (PyNum.abs (d -. radius))

/-- `_BaseSphere.project_point` (_base_sphere.py:43-90). -/
def baseProjectPoint (center : List K) (radius : K) (point : List K) : Res (List K) := do
  if arrIsEqual center point then
    .error (.valueError "The point must not be the center of the circle or sphere.")
  else do
    let v ← Vec.fromPoints center point
    let u ← Vec.unit v
    vadd center (smul radius u)

namespace Sphere

/-- `Sphere(point, radius)` (sphere.py:75-79). -/
def new (point : List K) (radius : K) : Res (Sphere K) := do
  let (p, r) ← newBaseSphere point radius
  if p.length ≠ 3 then .error (.valueError "The point must be 3D.") else pure ⟨p, r⟩

/-- `sphere.distance_point(point)` (_base_sphere.py:33-37). -/
def distancePoint (s : Sphere K) (point : List K) : Res K := baseDistancePoint s.point s.radius point

/-- `sphere.contains_point(point, **kwargs)` (_base_sphere.py:39-41). -/
def containsPoint (tol : Tol K) (s : Sphere K) (point : List K) : Res Bool :=
  containsPointFn (distancePoint s) tol point

/-- `sphere.project_point(point)` (_base_sphere.py:43-90). -/
def projectPoint (s : Sphere K) (point : List K) : Res (List K) :=
  baseProjectPoint s.point s.radius point

/-- `sphere.surface_area()` (sphere.py:81-106). -/
def surfaceArea (s : Sphere K) : K := PyNum.ofInt 4 *. PyNum.pi *. sq s.radius

/-- `sphere.volume()` (sphere.py:108-133). -/
def volume (s : Sphere K) : K := PyNum.ofInt 4 /. PyNum.ofInt 3 *. PyNum.pi *. cube s.radius

/-- `sphere.intersect_line(line)` (sphere.py:135-184). -/
def intersectLine (s : Sphere K) (l : Line K) : Res (List K × List K) := do
  let v ← Vec.fromPoints s.point l.point
  let u ← Vec.unit l.direction
  let d ← dot u v
  let discriminant := sq d -. (sq (Vec.norm v) -. sq s.radius)
  if discriminant <. zero then .error (.valueError "The line does not intersect the sphere.")
  else do
    let root ← mathSqrt discriminant
    let t1 := PyNum.neg d +. PyNum.ofInt (-1) *. root
    let t2 := PyNum.neg d +. PyNum.ofInt 1 *. root
    let a ← vadd l.point (smul t1 u)
    let b ← vadd l.point (smul t2 u)
    let a ← new1D a
    let b ← new1D b
    pure (a, b)

/-- The matrix `A` of the linear systems of `best_fit` (sphere.py:236, circle.py:457): twice the
coordinates, then a one. -/
def fitMatrix (ps : List (List K)) : List (List K) := ps.map fun p => smul two p ++ [one]

/-- The right-hand side `b` (sphere.py:237, circle.py:458): the squared norms. -/
def fitRhs (ps : List (List K)) : List K := ps.map fun p => sumL (p.map sq)

/-- `Sphere.best_fit(points)` (sphere.py:186-244). -/
def bestFit [NumpyExt K] (points : List (List K)) : Res (Sphere K) := do
  let ps ← newPoints points
  if rowDim ps ≠ 3 then .error (.valueError "The points must be 3D.")
  else if ps.length < 4 then .error (.valueError "There must be at least 4 points.")
  else do
    let r ← Pts.affineRank none ps
    if r ≠ 3 then .error (.valueError "The points must not be in a plane.")
    else
      let c := NumpyExt.lstsq (fitMatrix ps) (fitRhs ps)
      let center := c.take 3
      let radius := PyNum.sqrt (dotv center center +. c.getD 3 zero)
      new center radius

/-- `sphere.to_mesh(n_angles)` (sphere.py:246-301): the arrays `X`, `Y`, `Z` as lists of rows. -/
def toMesh (s : Sphere K) (nAngles : Nat) : List (List K) × List (List K) × List (List K) :=
  let anglesA : List K := linspace zero PyNum.pi nAngles
  let anglesB : List K := linspace zero (two *. PyNum.pi) nAngles
  let p0 := s.point.getD 0 zero
  let p1 := s.point.getD 1 zero
  let p2 := s.point.getD 2 zero
  (anglesA.map fun a => anglesB.map fun b => p0 +. s.radius *. (PyNum.sin a *. PyNum.sin b),
   anglesA.map fun a => anglesB.map fun b => p1 +. s.radius *. (PyNum.sin a *. PyNum.cos b),
   anglesA.map fun a => anglesB.map fun _ => p2 +. s.radius *. (PyNum.cos a *. one))

/-- `sphere.to_points(n_angles=...)` (_mixins.py:14-54). -/
def toPoints (s : Sphere K) (nAngles : Nat) : Res (List (List K)) :=
  let (X, Y, Z) := toMesh s nAngles
  newPoints (meshToPoints X Y Z)

end Sphere

namespace Circle

/-- `Circle(point, radius)` (circle.py:74-78). -/
def new (point : List K) (radius : K) : Res (Circle K) := do
  let (p, r) ← newBaseSphere point radius
  if p.length ≠ 2 then .error (.valueError "The point must be 2D.") else pure ⟨p, r⟩

/-- `circle.distance_point(point)` (_base_sphere.py:33-37). -/
def distancePoint (c : Circle K) (point : List K) : Res K := baseDistancePoint c.point c.radius point

/-- `circle.contains_point(point, **kwargs)` (_base_sphere.py:39-41). -/
def containsPoint (tol : Tol K) (c : Circle K) (point : List K) : Res Bool :=
  containsPointFn (distancePoint c) tol point

/-- `circle.project_point(point)` (_base_sphere.py:43-90). -/
def projectPoint (c : Circle K) (point : List K) : Res (List K) :=
  baseProjectPoint c.point c.radius point

/-- `np.linalg.det` of a 3x3 matrix, as its closed form (NumPy uses an LU factorisation). -/
def det3 (a b c d e f g h i : K) : K :=
  a *. (e *. i -. f *. h) -. b *. (d *. i -. f *. g) +. c *. (d *. h -. e *. g)

/-- `Circle.from_points(point_a, point_b, point_c, tol=...)` (circle.py:80-162).  The four minors of
the 4x4 matrix are written out. -/
def fromPoints [NumpyExt K] (tol : Option K) (a b c : List K) : Res (Circle K) := do
  let a ← new1D a
  let b ← new1D b
  let c ← new1D c
  match a, b, c with
  | [xa, ya], [xb, yb], [xc, yc] => do
    let ps ← newPoints [[xa, ya], [xb, yb], [xc, yc]]
    let col ← Pts.areCollinear tol ps
    if col then .error (.valueError "The points must not be collinear.")
    else do
      let sa := sq xa +. sq ya
      let sb := sq xb +. sq yb
      let sc := sq xc +. sq yc
      let m00 := det3 xa ya one xb yb one xc yc one
      let m01 := det3 sa ya one sb yb one sc yc one
      let m02 := det3 sa xa one sb xb one sc xc one
      let m03 := det3 sa xa ya sb xb yb sc xc yc
      let x := half *. m01 /. m00
      let y := PyNum.neg half *. m02 /. m00
      let radius ← mathSqrt (sq x +. sq y +. m03 /. m00)
      new [x, y] radius
  | _, _, _ => .error (.valueError "The points must be 2D.")

/-- `circle.circumference()` (circle.py:164-189). -/
def circumference (c : Circle K) : K := two *. PyNum.pi *. c.radius

/-- `circle.area()` (circle.py:191-216). -/
def area (c : Circle K) : K := PyNum.pi *. sq c.radius

/-- `circle.intersect_circle(other)` (circle.py:218-296). -/
def intersectCircle (c other : Circle K) : Res (List K × List K) := do
  let d ← Pt.distancePoint c.point other.point
  if d ==. zero then .error (.valueError "The centres of the circles are coincident.")
  else if (c.radius +. other.radius) <. d then
    .error (.valueError "The circles do not intersect. These circles are separate.")
  else if d <. PyNum.abs (c.radius -. other.radius) then
    .error (.valueError "The circles do not intersect. One circle is contained within the other.")
  else do
    let a := (sq c.radius -. sq other.radius +. sq d) /. (two *. d)
    let h ← mathSqrt (sq c.radius -. sq a)
    let v ← Vec.fromPoints c.point other.point
    let middle ← vadd c.point (sdiv (smul a v) d)
    match middle, c.point, other.point with
    | [mx, my], [x1, y1], [x2, y2] =>
      let xOf := fun (pm : K) => mx +. pm *. h *. (y1 -. y2) /. d
      let yOf := fun (pm : K) => my -. pm *. h *. (x1 -. x2) /. d
      let pa ← new1D [xOf (PyNum.ofInt 1), yOf (PyNum.ofInt 1)]
      let pb ← new1D [xOf (PyNum.ofInt (-1)), yOf (PyNum.ofInt (-1))]
      pure (pa, pb)
    | _, _, _ => .error (.valueError "unreachable: circle centers are 2D")

/-- `circle.intersect_line(line)` (circle.py:298-401). -/
def intersectLine (c : Circle K) (l : Line K) : Res (List K × List K) := do
  let u ← Vec.unit l.direction
  let p2 ← vadd l.point u
  let t1 ← vsub l.point c.point
  let t2 ← vsub p2 c.point
  match t1, t2 with
  | [x1, y1], [x2, y2] =>
    let dx := x2 -. x1
    let dy := y2 -. y1
    let drSquared := sq dx +. sq dy
    let determinant := x1 *. y2 -. x2 *. y1
    let discriminant := sq c.radius *. drSquared -. sq determinant
    if discriminant <. zero then .error (.valueError "The line does not intersect the circle.")
    else do
      let root ← mathSqrt discriminant
      let sign : K := if dy <. zero then PyNum.ofInt (-1) else PyNum.ofInt 1
      let xOf := fun (mp : K) => (determinant *. dy +. mp *. sign *. dx *. root) /. drSquared
      let yOf := fun (mp : K) =>
        (PyNum.neg determinant *. dx +. mp *. PyNum.abs dy *. root) /. drSquared
      let ta ← new1D [xOf (PyNum.ofInt (-1)), yOf (PyNum.ofInt (-1))]
      let tb ← new1D [xOf (PyNum.ofInt 1), yOf (PyNum.ofInt 1)]
      let pa ← vadd ta c.point
      let pb ← vadd tb c.point
      pure (pa, pb)
  | _, _ => .error (.valueError "too many values to unpack (expected 2)")

/-- `Circle.best_fit(points)` (circle.py:403-464). -/
def bestFit [NumpyExt K] (points : List (List K)) : Res (Circle K) := do
  let ps ← newPoints points
  if rowDim ps ≠ 2 then .error (.valueError "The points must be 2D.")
  else if ps.length < 3 then .error (.valueError "There must be at least 3 points.")
  else do
    let r ← Pts.affineRank none ps
    if r ≠ 2 then .error (.valueError "The points must not be collinear.")
    else
      let c := NumpyExt.lstsq (Sphere.fitMatrix ps) (Sphere.fitRhs ps)
      let center := c.take 2
      let radius := PyNum.sqrt (c.getD 2 zero +. sq (c.getD 0 zero) +. sq (c.getD 1 zero))
      new center radius

end Circle
end SkSpatial
