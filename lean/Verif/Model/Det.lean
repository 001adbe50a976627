import Verif.Model.Vector
import Verif.Model.Sphere
/-! # `Vector.angle_signed` and `Circle.from_points` with the determinant routine as a parameter -/

namespace SkSpatial
variable {K : Type} [PyNum K]
namespace Vec

/-- `Vector.angle_signed(other)` (vector.py:345-393) where `det a b c d` is what `np.linalg.det([[a, b], [c, d]])`
(vector.py:391) returns.  `angleSigned` is the case of the closed form; NumPy evaluates an LU factorisation and the exponential
of a sum of logarithms, whose rounding errors are not those of the closed form. -/
def angleSignedWith (det : K → K → K → K → K) (v other : List K) : Res K := do
  let notBoth2D : Bool ← (do
    if v.length = 2 then do
      let o ← new1D other
      pure (!decide (o.length = 2))
    else pure true)
  if notBoth2D then .error (.valueError "The vectors must be 2D.")
  else do
    let d ← dot v other
    match v, other with
    | [x1, y1], [x2, y2] => pure (PyNum.atan2 (det x1 y1 x2 y2) d)
    | _, _ => .error (.valueError "The vectors must be 2D.")  -- unreachable: lengths checked above

theorem angleSigned_with (v other : List K) : angleSigned v other = angleSignedWith det2 v other := rfl

end Vec

namespace Circle

/-- `Circle.from_points(point_a, point_b, point_c, tol=...)` (circle.py:80-162) where `det a b c d e f g h i` is what
`np.linalg.det([[a, b, c], [d, e, f], [g, h, i]])` (circle.py:127, called by `_minor`) returns.  `fromPoints` is the case of the
closed form. -/
def fromPointsWith [NumpyExt K] (det : K → K → K → K → K → K → K → K → K → K) (tol : Option K) (a b c : List K) :
    Res (Circle K) := do
  let a ← new1D a
  let b ← new1D b
  let c ← new1D c
  match a, b, c with
  | [xa, ya], [xb, yb], [xc, yc] => do
    let ps ← newPoints [[xa, ya], [xb, yb], [xc, yc]]
    let col ← Pts.areCollinear tol ps
    if col then .error (.valueError "The points must not be collinear.")
    else do
      let sa := sq xa +. sq ya
      let sb := sq xb +. sq yb
      let sc := sq xc +. sq yc
      let m00 := det xa ya one xb yb one xc yc one
      let m01 := det sa ya one sb yb one sc yc one
      let m02 := det sa xa one sb xb one sc xc one
      let m03 := det sa xa ya sb xb yb sc xc yc
      let x := half *. m01 /. m00
      let y := PyNum.neg half *. m02 /. m00
      let radius ← mathSqrt (sq x +. sq y +. m03 /. m00)
      new [x, y] radius
  | _, _, _ => .error (.valueError "The points must be 2D.")

theorem fromPoints_with [NumpyExt K] (tol : Option K) (a b c : List K) :
    fromPoints tol a b c = fromPointsWith det3 tol a b c := rfl

end Circle
end SkSpatial
