import Verif.Model.Sphere
import Verif.Model.Cylinder
/-!
# Radii that are Python floats

`Circle`, `Sphere` and `Cylinder` store the radius as it is given (_base_sphere.py:22, cylinder.py:114): a Python `float`, or a
`np.float64`.  The difference shows in `radius ** 2` and `radius ** 3` only: for a finite Python float whose power is too large
`**` raises `OverflowError` (CPython's `float_pow`, floatobject.c), while `np.float64` returns `inf`.  The model files `Sphere`
and `Cylinder` have the latter; the definitions below are the same methods for a radius that is a Python float.  All other
numbers in these methods come out of NumPy arrays and are `np.float64`.  A method that evaluates the power after other steps that may
raise is written as these steps, the power, and then the method as modelled for `np.float64`.
-/

namespace SkSpatial
variable {K : Type} [PyNum K]

/-- The result of `**` of a finite Python float: `OverflowError` if it is not finite. -/
def pyPowResult (x result : K) : Res K :=
  if PyNum.isFinite x && !PyNum.isFinite result then .error (.overflowError "(34, 'Numerical result out of range')")
  else .ok result

/-- `x ** 2` for a Python float. -/
def pySq (x : K) : Res K := pyPowResult x (sq x)

/-- `x ** 3` for a Python float. -/
def pyCube (x : K) : Res K := pyPowResult x (cube x)

namespace Circle

/-- `circle.area()` (circle.py:216). -/
def areaPy (c : Circle K) : Res K := do
  let r2 ← pySq c.radius
  pure (PyNum.pi *. r2)

/-- `circle.intersect_circle(other)` (circle.py:218-296): the powers of the radii are evaluated in line 282, after the three
checks of the distance. -/
def intersectCirclePy (c other : Circle K) : Res (List K × List K) := do
  let d ← Pt.distancePoint c.point other.point
  if d ==. zero || (c.radius +. other.radius) <. d || d <. PyNum.abs (c.radius -. other.radius) then intersectCircle c other
  else do
    let _ ← pySq c.radius
    let _ ← pySq other.radius
    intersectCircle c other

/-- `circle.intersect_line(line)` (circle.py:298-401): the power of the radius is evaluated in line 381, after the translation of the
line and the unpacking of its points. -/
def intersectLinePy (c : Circle K) (l : Line K) : Res (List K × List K) := do
  let u ← Vec.unit l.direction
  let p2 ← vadd l.point u
  let t1 ← vsub l.point c.point
  let t2 ← vsub p2 c.point
  match t1, t2 with
  | [_, _], [_, _] => do
    let _ ← pySq c.radius
    intersectLine c l
  | _, _ => intersectLine c l

end Circle

namespace Sphere

/-- `sphere.surface_area()` (sphere.py:106). -/
def surfaceAreaPy (s : Sphere K) : Res K := do
  let r2 ← pySq s.radius
  pure (PyNum.ofInt 4 *. PyNum.pi *. r2)

/-- `sphere.volume()` (sphere.py:133). -/
def volumePy (s : Sphere K) : Res K := do
  let r3 ← pyCube s.radius
  pure (PyNum.ofInt 4 /. PyNum.ofInt 3 *. PyNum.pi *. r3)

/-- `sphere.intersect_line(line)` (sphere.py:135-184): the power of the radius is evaluated in line 174. -/
def intersectLinePy (s : Sphere K) (l : Line K) : Res (List K × List K) := do
  let v ← Vec.fromPoints s.point l.point
  let u ← Vec.unit l.direction
  let _ ← dot u v
  let _ ← pySq s.radius
  intersectLine s l

end Sphere

namespace Cylinder

/-- `cylinder.surface_area()` (cylinder.py:233). -/
def surfaceAreaPy (c : Cylinder K) : Res K := do
  let r2 ← pySq c.radius
  pure (lateralSurfaceArea c +. two *. PyNum.pi *. r2)

/-- `cylinder.volume()` (cylinder.py:261). -/
def volumePy (c : Cylinder K) : Res K := do
  let r2 ← pySq c.radius
  pure (PyNum.pi *. r2 *. length c)

/-- `_intersect_line_with_infinite_cylinder` (cylinder.py:706-731): the power of the radius is evaluated in line 722, outside the
`try` that replaces `ValueError`s. -/
def intersectInfinitePy (c : Cylinder K) (l : Line K) (nDigits : Option Int) : Res (List K × List K) := do
  let vc ← Vec.unit c.vector
  let vl ← Vec.unit l.direction
  let deltaP ← Vec.fromPoints c.point l.point
  let lc ← dot vl vc
  let perpL ← vsub vl (smul lc vc)
  let perpL ← wrapped "norm" perpL
  let pc ← dot deltaP vc
  let perpP ← vsub deltaP (smul pc vc)
  let _ ← dot perpL perpP
  let _ ← wrapped "norm" perpP
  let _ ← pySq c.radius
  intersectInfinite c l nDigits

/-- `_intersect_line_with_finite_cylinder` (cylinder.py:755-777): if the line meets both caps the infinite cylinder is not
intersected, and no power of the radius is evaluated. -/
def intersectFinitePy (c : Cylinder K) (l : Line K) (nDigits : Option Int) : Res (List K × List K) := do
  let (pBase, pTop) ← intersectCaps c l
  match pBase, pTop with
  | some pb, some pt => pure (pb, pt)
  | _, _ => do
    let _ ← intersectInfinitePy c l nDigits
    intersectFinite c l nDigits

/-- `cylinder.intersect_line(line, n_digits, infinite)` (cylinder.py:310-409). -/
def intersectLinePy (c : Cylinder K) (l : Line K) (nDigits : Option Int) (infinite : Bool) : Res (List K × List K) :=
  if Line.dimension l ≠ 3 then .error (.valueError "The line must be 3D.")
  else if infinite then intersectInfinitePy c l nDigits
  else intersectFinitePy c l nDigits

end Cylinder
end SkSpatial
