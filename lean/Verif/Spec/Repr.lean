import Verif.Model.Repr
/-! # Specification vocabulary: printed objects -/

namespace SkSpatial
variable {K : Type}

/-- What is assumed of NumPy's and Python's texts: an array is printed as its class name with an argument in
parentheses that contains no further closing parenthesis, and a number contains none. -/
structure Readable (S : Shown K) : Prop where
  array : ∀ c rows, ∃ body : List Char, ')' ∉ body ∧ (S.array c rows).toList = c.name.toList ++ '(' :: (body ++ [')'])
  num : ∀ r, ')' ∉ (S.num r).toList

/-- Two objects of the same class whose parts are printed alike. -/
def SameText (S : Shown K) : Obj K → Obj K → Prop
  | .point p, .point q => S.array .point [p] = S.array .point [q]
  | .vector p, .vector q => S.array .vector [p] = S.array .vector [q]
  | .points p, .points q => S.array .points p = S.array .points q
  | .line l, .line m => S.array .point [l.point] = S.array .point [m.point] ∧
      S.array .vector [l.direction] = S.array .vector [m.direction]
  | .plane l, .plane m => S.array .point [l.point] = S.array .point [m.point] ∧
      S.array .vector [l.normal] = S.array .vector [m.normal]
  | .circle c, .circle d => S.array .point [c.point] = S.array .point [d.point] ∧ S.num c.radius = S.num d.radius
  | .sphere c, .sphere d => S.array .point [c.point] = S.array .point [d.point] ∧ S.num c.radius = S.num d.radius
  | .cylinder c, .cylinder d => S.array .point [c.point] = S.array .point [d.point] ∧
      S.array .vector [c.vector] = S.array .vector [d.vector] ∧ S.num c.radius = S.num d.radius
  | .triangle t, .triangle u => S.array .point [t.pointA] = S.array .point [u.pointA] ∧
      S.array .point [t.pointB] = S.array .point [u.pointB] ∧ S.array .point [t.pointC] = S.array .point [u.pointC]
  | .segment t, .segment u => S.array .point [t.pointA] = S.array .point [u.pointA] ∧
      S.array .point [t.pointB] = S.array .point [u.pointB]
  | _, _ => False

/-- The name of the class of an object. -/
def Obj.className : Obj K → String
  | .point _ => "Point"
  | .vector _ => "Vector"
  | .points _ => "Points"
  | .line _ => "Line"
  | .plane _ => "Plane"
  | .circle _ => "Circle"
  | .sphere _ => "Sphere"
  | .cylinder _ => "Cylinder"
  | .triangle _ => "Triangle"
  | .segment _ => "LineSegment"

end SkSpatial
