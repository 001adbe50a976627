import Verif.Model.Vector
/-!
# The composite objects

A structure per class, with the attributes its `__init__` stores.  The values of these structures that
Python can build are the ones returned by the constructors `X.new` of the following files.
-/

namespace SkSpatial

/-- `Line` (src/skspatial/objects/line.py:17-87); `vector` and `direction` are the same attribute. -/
structure Line (K : Type) where
  point : List K
  direction : List K
  deriving DecidableEq, Repr

/-- `Plane` (src/skspatial/objects/plane.py:18-87); `vector` and `normal` are the same attribute. -/
structure Plane (K : Type) where
  point : List K
  normal : List K
  deriving DecidableEq, Repr

/-- `Circle` (src/skspatial/objects/circle.py:19-78). -/
structure Circle (K : Type) where
  point : List K
  radius : K
  deriving DecidableEq, Repr

/-- `Sphere` (src/skspatial/objects/sphere.py:20-79). -/
structure Sphere (K : Type) where
  point : List K
  radius : K
  deriving DecidableEq, Repr

/-- `Cylinder` (src/skspatial/objects/cylinder.py:23-116). -/
structure Cylinder (K : Type) where
  point : List K
  vector : List K
  radius : K
  deriving DecidableEq, Repr

/-- `Triangle` (src/skspatial/objects/triangle.py:18-75). -/
structure Triangle (K : Type) where
  pointA : List K
  pointB : List K
  pointC : List K
  deriving DecidableEq, Repr

/-- `LineSegment` (src/skspatial/objects/line_segment.py:16-58). -/
structure LineSegment (K : Type) where
  pointA : List K
  pointB : List K
  deriving DecidableEq, Repr

/-- Any object of the library, for the methods that check `isinstance` and for `plotter`. -/
inductive Obj (K : Type) where
  | point (p : List K)
  | vector (v : List K)
  | points (ps : List (List K))
  | line (l : Line K)
  | plane (p : Plane K)
  | circle (c : Circle K)
  | sphere (s : Sphere K)
  | cylinder (c : Cylinder K)
  | triangle (t : Triangle K)
  | segment (s : LineSegment K)

variable {K : Type} [PyNum K]

/-- `Point + Vector` and the like inside the library (`a + b` on 1D arrays); the class of the result
is not modelled here (see `arrayWrap`). -/
def ptAdd (p v : List K) : Res (List K) := vadd p v

end SkSpatial
