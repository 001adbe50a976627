import Verif.Model.Cylinder
import Verif.Model.LineSegment
import Verif.Model.Sphere
import Verif.Model.Triangle
/-!
# Plotting: `_base_spatial.py`, `plotting.py` and the `plot_2d` / `plot_3d` methods

Matplotlib is not modelled: an axes object is only the information whether it is an `Axes3D`, and a plot method
returns the list of calls it makes on the axes, with the coordinates it passes.  The keywords that the methods
pass on to Matplotlib (colours and the like) are not modelled.
-/

namespace SkSpatial
variable {K : Type} [PyNum K]

/-- A Matplotlib axes object. -/
structure Axes where
  is3D : Bool

/-- One call on the axes. -/
inductive Drawing (K : Type) where
  /-- `ax.scatter(xs, ys, ...)`: one list of coordinates per axis -/
  | scatter (coords : List (List K))
  /-- `ax.plot(xs, ys, ...)` -/
  | plot (coords : List (List K))
  /-- `ax.arrow(x, y, dx, dy)` -/
  | arrow (x y dx dy : K)
  /-- `ax.add_artist(plt.Circle(center, radius))` -/
  | circle (center : List K) (radius : K)
  /-- `ax.plot_surface(X, Y, Z)` -/
  | surface (X Y Z : List (List K))
  deriving DecidableEq, Repr

/-- `p[i]` on a 1D array. -/
def item (p : List K) (i : Nat) : Res K :=
  match p[i]? with
  | some x => .ok x
  | none => .error (.indexError "index out of bounds")

/-- `array[:, i]` on a 2D array. -/
def col (a : List (List K)) (i : Nat) : Res (List K) := a.mapM fun r => item r i

/-- `_scatter_2d` (src/skspatial/plotting.py:22-37). -/
def scatter2d (points : List (List K)) : Res (List (Drawing K)) := do
  let xs ← col points 0
  let ys ← col points 1
  pure [.scatter [xs, ys]]

/-- `_scatter_3d` (plotting.py:40-64). -/
def scatter3d (ax : Axes) (points : List (List K)) : Res (List (Drawing K)) :=
  if !ax.is3D then .error (.valueError "Axis must be instance of class Axes3D.")
  else do
    let xs ← col points 0
    let ys ← col points 1
    let zs ← col points 2
    pure [.scatter [xs, ys, zs]]

/-- `_connect_points_2d` (plotting.py:67-84). -/
def connectPoints2d (a b : List K) : Res (List (Drawing K)) := do
  let a0 ← item a 0
  let b0 ← item b 0
  let a1 ← item a 1
  let b1 ← item b 1
  pure [.plot [[a0, b0], [a1, b1]]]

/-- `_connect_points_3d` (plotting.py:87-114). -/
def connectPoints3d (ax : Axes) (a b : List K) : Res (List (Drawing K)) :=
  if !ax.is3D then .error (.valueError "Axis must be instance of class Axes3D.")
  else do
    let a0 ← item a 0
    let b0 ← item b 0
    let a1 ← item a 1
    let b1 ← item b 1
    let a2 ← item a 2
    let b2 ← item b 2
    pure [.plot [[a0, b0], [a1, b1], [a2, b2]]]

/-- `ax.plot_surface(X, Y, Z)`: a method of `Axes3D` only. -/
def plotSurface (ax : Axes) (X Y Z : List (List K)) : Res (List (Drawing K)) :=
  if !ax.is3D then .error (.attributeError "'Axes' object has no attribute 'plot_surface'")
  else .ok [.surface X Y Z]

/-- The keywords of the plot methods that change what is drawn. -/
structure PlotArgs (K : Type) where
  /-- `Line`: `t_1`, `t_2` -/
  t1 : K
  t2 : K
  /-- `Vector`: `point` (if given) and `scalar` -/
  tail : Option (List K)
  scalar : K
  /-- `Triangle`: `part` -/
  part : String
  /-- `Plane`: `lims_x`, `lims_y` -/
  limsX : List K
  limsY : List K
  /-- `Sphere` and `Cylinder`: `n_angles`, `n_along_axis` -/
  nAngles : Nat
  nAlongAxis : Nat

/-- The defaults of these keywords (line.py:787 and 828, vector.py:759 and 796, triangle.py:632 and 671,
plane.py:855, sphere.py:303, cylinder.py:641). -/
def PlotArgs.default : PlotArgs K where
  t1 := zero
  t2 := one
  tail := none
  scalar := one
  part := "points"
  limsX := [PyNum.ofInt (-1), one]
  limsY := [PyNum.ofInt (-1), one]
  nAngles := 30
  nAlongAxis := 100

namespace Line
/-- `line.plot_2d(ax, t_1, t_2)` (line.py:787-826). -/
def plot2d (args : PlotArgs K) (l : Line K) : Res (List (Drawing K)) := do
  let p1 ← toPoint l args.t1
  let p2 ← toPoint l args.t2
  connectPoints2d p1 p2
/-- `line.plot_3d(ax, t_1, t_2)` (line.py:828-868). -/
def plot3d (args : PlotArgs K) (ax : Axes) (l : Line K) : Res (List (Drawing K)) := do
  let p1 ← toPoint l args.t1
  let p2 ← toPoint l args.t2
  connectPoints3d ax p1 p2
end Line

namespace Vec
/-- `vector.plot_2d(ax, point, scalar)` (vector.py:759-794); `x, y = point` raises unless there are two values. -/
def plot2d (args : PlotArgs K) (v : List K) : Res (List (Drawing K)) :=
  match args.tail.getD [zero, zero], smul args.scalar v with
  | [x, y], [dx, dy] => .ok [.arrow x y dx dy]
  | _, _ => .error (.valueError "wrong number of values to unpack (expected 2)")
/-- `vector.plot_3d(ax, point, scalar)` (vector.py:796-838). -/
def plot3d (args : PlotArgs K) (ax : Axes) (v : List K) : Res (List (Drawing K)) := do
  let p := args.tail.getD [zero, zero, zero]
  let p2 ← vadd p (smul args.scalar v)
  connectPoints3d ax p p2
end Vec

namespace Triangle
/-- `triangle.plot_2d(ax, part)` (triangle.py:632-669): any other `part` draws nothing.
The other keywords are passed on to the plot methods of the parts. -/
def plot2d (args : PlotArgs K) (t : Triangle K) : Res (List (Drawing K)) :=
  if args.part = "points" then do
    let ps ← multiple (point t) ["A", "B", "C"]
    let ds ← ps.mapM fun p => scatter2d [p]
    pure ds.flatten
  else if args.part = "lines" then do
    let ls ← multiple (line t) ["a", "b", "c"]
    let ds ← ls.mapM fun l => Line.plot2d args l
    pure ds.flatten
  else .ok []
/-- `triangle.plot_3d(ax, part)` (triangle.py:671-709). -/
def plot3d (args : PlotArgs K) (ax : Axes) (t : Triangle K) : Res (List (Drawing K)) :=
  if args.part = "points" then do
    let ps ← multiple (point t) ["A", "B", "C"]
    let ds ← ps.mapM fun p => scatter3d ax [p]
    pure ds.flatten
  else if args.part = "lines" then do
    let ls ← multiple (line t) ["a", "b", "c"]
    let ds ← ls.mapM fun l => Line.plot3d args ax l
    pure ds.flatten
  else .ok []
end Triangle

namespace Obj

/-- `obj.plot_2d(ax, ...)`, or `none` if the class has no such method (point.py:98-124, vector.py:759-794,
points.py:325-352, line.py:787-826, circle.py:466-494, triangle.py:632-669, line_segment.py:157-192). -/
def plot2d (args : PlotArgs K) : Obj K → Option (Axes → Res (List (Drawing K)))
  | .point p => some fun _ => scatter2d [p]
  | .vector v => some fun _ => Vec.plot2d args v
  | .points ps => some fun _ => scatter2d ps
  | .line l => some fun _ => Line.plot2d args l
  | .plane _ => none
  | .circle c => some fun _ => .ok [.circle c.point c.radius]
  | .sphere _ => none
  | .cylinder _ => none
  | .triangle t => some fun _ => Triangle.plot2d args t
  | .segment s => some fun _ => connectPoints2d s.pointA s.pointB

/-- `obj.plot_3d(ax, ...)`, or `none` if the class has no such method (point.py:126-153, vector.py:796-838,
points.py:354-382, line.py:828-868, plane.py:855-885, sphere.py:303-330, cylinder.py:641-677,
triangle.py:671-709, line_segment.py:194-229). -/
def plot3d (args : PlotArgs K) : Obj K → Option (Axes → Res (List (Drawing K)))
  | .point p => some fun ax => scatter3d ax [p]
  | .vector v => some fun ax => Vec.plot3d args ax v
  | .points ps => some fun ax => scatter3d ax ps
  | .line l => some fun ax => Line.plot3d args ax l
  | .plane P => some fun ax => do
    let (X, Y, Z) ← Plane.toMesh P args.limsX args.limsY
    plotSurface ax X Y Z
  | .circle _ => none
  | .sphere s => some fun ax =>
    let (X, Y, Z) := Sphere.toMesh s args.nAngles
    plotSurface ax X Y Z
  | .cylinder c => some fun ax => do
    let (X, Y, Z) ← Cylinder.toMesh c args.nAlongAxis args.nAngles
    plotSurface ax X Y Z
  | .triangle t => some fun ax => Triangle.plot3d args ax t
  | .segment s => some fun ax => connectPoints3d ax s.pointA s.pointB

/-- `obj.dimension` (_base_array.py:139-140 and 198-202, _base_line_plane.py:27, _base_sphere.py:24,
cylinder.py:116, triangle.py:75).  `LineSegment.__init__` (line_segment.py:49-54) does not set it. -/
def dimension : Obj K → Res Nat
  | .point p => .ok p.length
  | .vector v => .ok v.length
  | .points ps => .ok (rowDim ps)
  | .line l => .ok (Line.dimension l)
  | .plane P => .ok (Plane.dimension P)
  | .circle c => .ok c.point.length
  | .sphere s => .ok s.point.length
  | .cylinder c => .ok c.point.length
  | .triangle t => .ok (Triangle.dimension t)
  | .segment _ => .error (.attributeError "'LineSegment' object has no attribute 'dimension'")

/-- `obj.plotter(...)` (src/skspatial/objects/_base_spatial.py:4-18): a function of the axes. -/
def plotter (args : PlotArgs K) (o : Obj K) : Res (Axes → Res (List (Drawing K))) := do
  let d ← dimension o
  if d = 2 then
    match plot2d args o with
    | none => .error (.valueError "The object cannot be plotted in 2D.")
    | some f => pure f
  else if d = 3 then
    match plot3d args o with
    | none => .error (.valueError "The object cannot be plotted in 3D.")
    | some f => pure f
  else .error (.valueError "The dimension must be 2 or 3.")

end Obj

/-- The loop of `plot_2d(*plotters)` and `plot_3d(*plotters)` (plotting.py:117-138): each plotter is called on the
new axes (a plain `Axes`, or an `Axes3D`), in order. -/
def plotAll (is3D : Bool) (plotters : List (Axes → Res (List (Drawing K)))) : Res (List (Drawing K)) := do
  let ds ← plotters.mapM fun f => f ⟨is3D⟩
  pure ds.flatten

end SkSpatial
