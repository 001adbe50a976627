import Verif.Model.Objects
import Verif.Model.Array
/-!
# `__repr__`

The text of an array (`np.array_repr`) and of a radius (`str`) is NumPy's and Python's; it is a parameter here.
`npShow` is NumPy's format for short integer arrays, used in the examples.
-/

namespace SkSpatial
variable {K : Type}

/-- `np.array_repr` of a `Point`, `Vector` or `Points` (given with its class) and `str(radius)`. -/
structure Shown (K : Type) where
  array : Cls → List (List K) → String
  num : K → String

namespace Shown
variable (S : Shown K)

/-- `np.array_repr(self.point)`. -/
def point (p : List K) : String := S.array .point [p]
/-- `np.array_repr(self.vector)`. -/
def vector (v : List K) : String := S.array .vector [v]

/-- `_BaseLinePlane.__repr__` (_base_line_plane.py:29-36): class name, and the name of the last parameter of the
constructor (`direction`, line.py:84; `normal`, plane.py:85). -/
def linePlane (nameClass nameVector : String) (p v : List K) : String :=
  nameClass ++ "(point=" ++ S.point p ++ ", " ++ nameVector ++ "=" ++ S.vector v ++ ")"

/-- `_BaseSphere.__repr__` (_base_sphere.py:26-31). -/
def sphere (nameClass : String) (p : List K) (r : K) : String :=
  nameClass ++ "(point=" ++ S.point p ++ ", radius=" ++ S.num r ++ ")"

/-- `repr(obj)` for every class: `_base_line_plane.py:29-36`, `_base_sphere.py:26-31`, `cylinder.py:118-122`,
`line_segment.py:60-64`, `triangle.py:77-82`; arrays use `ndarray.__repr__`, which is `np.array_repr`. -/
def repr : Obj K → String
  | .point p => S.point p
  | .vector v => S.vector v
  | .points ps => S.array .points ps
  | .line l => S.linePlane "Line" "direction" l.point l.direction
  | .plane p => S.linePlane "Plane" "normal" p.point p.normal
  | .circle c => S.sphere "Circle" c.point c.radius
  | .sphere s => S.sphere "Sphere" s.point s.radius
  | .cylinder c =>
    "Cylinder(point=" ++ S.point c.point ++ ", vector=" ++ S.vector c.vector ++ ", radius=" ++ S.num c.radius ++ ")"
  | .triangle t =>
    "Triangle(point_a=" ++ S.point t.pointA ++ ", point_b=" ++ S.point t.pointB ++ ", point_c=" ++ S.point t.pointC ++ ")"
  | .segment s => "LineSegment(point_a=" ++ S.point s.pointA ++ ", point_b=" ++ S.point s.pointB ++ ")"

end Shown

/-- The class name NumPy prints for an array (`type(arr).__name__`). -/
def Cls.name : Cls → String
  | .point => "Point"
  | .vector => "Vector"
  | .points => "Points"

/-- `s` right-justified to `w` characters. -/
def padLeft (w : Nat) (s : String) : String := String.ofList (List.replicate (w - s.length) ' ') ++ s

/-- `sep.join(l)`. -/
def joinText (sep : String) : List String → String
  | [] => ""
  | [x] => x
  | x :: y :: r => x ++ sep ++ joinText sep (y :: r)

/-- One row of an array: right-justified entries in brackets. -/
def rowText (w : Nat) (r : List Int) : String := "[" ++ joinText ", " (r.map fun i => padLeft w (toString i)) ++ "]"

/-- The width of the widest entry. -/
def entryWidth (rows : List (List Int)) : Nat := (rows.flatten.map fun i => (toString i).length).foldl max 0

/-- `np.array_repr` of an integer array that fits on one line per row (at most 75 characters) and is not
abbreviated (at most 1000 entries): right-justified entries, rows indented below each other. -/
def npShow : Shown Int where
  array := fun c rows =>
    match c, rows with
    | .points, rs =>
      c.name ++ "([" ++ joinText (",\n" ++ String.ofList (List.replicate (c.name.length + 2) ' '))
        (rs.map (rowText (entryWidth rs))) ++ "])"
    | _, r :: rs => c.name ++ "(" ++ rowText (entryWidth (r :: rs)) r ++ ")"
    | _, [] => c.name ++ "([])"
  num := toString

end SkSpatial
