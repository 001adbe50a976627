import Verif.Model.Line
/-! # `src/skspatial/objects/triangle.py` -/

namespace SkSpatial
variable {K : Type} [PyNum K]
namespace Triangle

/-- `Triangle(point_a, point_b, point_c)` (triangle.py:64-75). -/
def new [NumpyExt K] (a b c : List K) : Res (Triangle K) := do
  let a ← new1D a
  let b ← new1D b
  let c ← new1D c
  if !(decide (a.length = b.length) && decide (b.length = c.length)) then
    .error (.valueError "The points must have the same dimension.")
  else do
    let ps ← newPoints [a, b, c]
    let col ← Pts.areCollinear none ps
    if col then .error (.valueError "The points must not be collinear.") else pure ⟨a, b, c⟩

/-- `triangle.dimension` (triangle.py:75). -/
def dimension (t : Triangle K) : Nat := t.pointA.length

/-- `triangle.normal()` (triangle.py:120-157). -/
def normal (t : Triangle K) : Res (List K) := do
  let ab ← Vec.fromPoints t.pointA t.pointB
  let ac ← Vec.fromPoints t.pointA t.pointC
  Vec.cross ab ac

/-- `triangle.area()` (triangle.py:159-188). -/
def area (t : Triangle K) : Res K := do
  let n ← normal t
  pure (half *. Vec.norm n)

/-- `triangle.point(vertex)` (triangle.py:214-263). -/
def point (t : Triangle K) (vertex : String) : Res (List K) :=
  if vertex = "A" then .ok t.pointA
  else if vertex = "B" then .ok t.pointB
  else if vertex = "C" then .ok t.pointC
  else .error (.valueError "The vertex must be 'A', 'B', or 'C'.")

/-- `triangle.line(side)` (triangle.py:265-318). -/
def line (t : Triangle K) (side : String) : Res (Line K) :=
  if side = "a" then Line.fromPoints t.pointB t.pointC
  else if side = "b" then Line.fromPoints t.pointC t.pointA
  else if side = "c" then Line.fromPoints t.pointA t.pointB
  else .error (.valueError "The side must be 'a', 'b', or 'c'.")

/-- `triangle.length(side)` (triangle.py:320-361). -/
def length (t : Triangle K) (side : String) : Res K := do
  let l ← line t side
  pure (Vec.norm l.direction)

/-- `triangle.multiple(name_method, inputs)` (triangle.py:84-118), for a given method. -/
def multiple {α : Type} (method : String → Res α) (inputs : List String) : Res (List α) :=
  inputs.mapM method

/-- The three lengths `self.multiple('length', 'abc')`. -/
def lengths (t : Triangle K) : Res (K × K × K) := do
  let a ← length t "a"
  let b ← length t "b"
  let c ← length t "c"
  pure (a, b, c)

/-- `triangle.perimeter()` (triangle.py:190-212). -/
def perimeter (t : Triangle K) : Res K := do
  let (a, b, c) ← lengths t
  pure (sumL [a, b, c])

/-- `triangle.angle(vertex)` (triangle.py:363-418). -/
def angle (t : Triangle K) (vertex : String) : Res K := do
  let (a, b, c) ← lengths t
  if vertex = "A" then mathAcos ((sq b +. sq c -. sq a) /. (two *. b *. c))
  else if vertex = "B" then mathAcos ((sq a +. sq c -. sq b) /. (two *. a *. c))
  else if vertex = "C" then mathAcos ((sq a +. sq b -. sq c) /. (two *. a *. b))
  else .error (.valueError "The vertex must be 'A', 'B', or 'C'.")

/-- `triangle.centroid()` (triangle.py:420-440). -/
def centroid (t : Triangle K) : Res (List K) := do
  let ps ← newPoints [t.pointA, t.pointB, t.pointC]
  Pts.centroid ps

/-- `triangle.altitude(vertex)` (triangle.py:442-496). -/
def altitude (t : Triangle K) (vertex : String) : Res (Line K) :=
  if vertex = "A" then do
    let l ← line t "a"
    let q ← Line.projectPoint l t.pointA
    Line.fromPoints t.pointA q
  else if vertex = "B" then do
    let l ← line t "b"
    let q ← Line.projectPoint l t.pointB
    Line.fromPoints t.pointB q
  else if vertex = "C" then do
    let l ← line t "c"
    let q ← Line.projectPoint l t.pointC
    Line.fromPoints t.pointC q
  else .error (.valueError "The vertex must be 'A', 'B', or 'C'.")

/-- `triangle.orthocenter(**kwargs)` (triangle.py:498-528). -/
def orthocenter [NumpyExt K] (t : Triangle K) (checkCoplanar : Bool) (tol : Tol K) :
    Res (List K) := do
  let la ← altitude t "A"
  let lb ← altitude t "B"
  Line.intersectLine la lb checkCoplanar tol

/-- `triangle.classify(**kwargs)` (triangle.py:530-583). -/
def classify (tol : Tol K) (t : Triangle K) : Res String := do
  let (a, b, c) ← lengths t
  let ab ← isclose tol a b
  let ac ← isclose tol a c
  let bc ← isclose tol b c
  let n := ab.toNat + ac.toNat + bc.toNat
  if n = 3 then pure "equilateral"
  else if n = 1 then pure "isosceles"
  else pure "scalene"

/-- `sorted([a, b, c])`. -/
def sort3 (a b c : K) : K × K × K :=
  let (a, b) := if b <. a then (b, a) else (a, b)
  let (b, c) := if c <. b then (c, b) else (b, c)
  let (a, b) := if b <. a then (b, a) else (a, b)
  (a, b, c)

/-- `triangle.is_right(**kwargs)` (triangle.py:585-630). -/
def isRight (tol : Tol K) (t : Triangle K) : Res Bool := do
  let (a, b, c) ← lengths t
  let (a, b, c) := sort3 a b c
  isclose tol (sq a +. sq b) (sq c)

end Triangle
end SkSpatial
