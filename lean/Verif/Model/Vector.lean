import Verif.Model.Array
/-! # `src/skspatial/objects/vector.py` and `src/skspatial/objects/point.py` -/

namespace SkSpatial
variable {K : Type} [PyNum K]

namespace Vec

/-- `Vector.from_points(a, b)` (vector.py:71-101): `np.subtract(b, a)`, then the constructor. -/
def fromPoints (a b : List K) : Res (List K) := do
  let ab ← vsub b a
  new1D ab

/-- `Vector.norm()` (vector.py:103-133) with the default `ord`. -/
def norm (v : List K) : K := normv v

/-- `Vector.unit()` (vector.py:135-178). -/
def unit (v : List K) : Res (List K) :=
  let magnitude := norm v
  if magnitude ==. zero then .error (.valueError "The magnitude must not be zero.")
  else .ok (sdiv v magnitude)

/-- `Vector.is_zero(**kwargs)` (vector.py:180-211). -/
def isZero (tol : Tol K) (v : List K) : Res Bool := do
  let d ← dot v v
  isclose tol d zero

/-- `Vector.cross(other)` (vector.py:213-248). -/
def cross (v other : List K) : Res (List K) := do
  let a ← setDimension 3 v
  let b ← new1D other
  let b ← setDimension 3 b
  let c ← cross3 a b
  new1D c

/-- `Vector.cosine_similarity(other)` (vector.py:250-304). -/
def cosineSimilarity (v other : List K) : Res K := do
  let o ← new1D other
  let denom := norm v *. norm o
  if denom ==. zero then .error (.valueError "The vectors must have non-zero magnitudes.")
  else do
    let d ← dot v other
    let cosTheta := d /. denom
    pure (clip cosTheta (PyNum.ofInt (-1)) one)

/-- `Vector.angle_between(other)` (vector.py:306-343). -/
def angleBetween (v other : List K) : Res K := do
  let c ← cosineSimilarity v other
  mathAcos c

/-- `Vector.angle_signed(other)` (vector.py:345-393). -/
def angleSigned (v other : List K) : Res K := do
  let notBoth2D : Bool ← (do
    if v.length = 2 then do
      let o ← new1D other
      pure (!decide (o.length = 2))
    else pure true)
  if notBoth2D then .error (.valueError "The vectors must be 2D.")
  else do
    let d ← dot v other
    match v, other with
    | [x1, y1], [x2, y2] => pure (PyNum.atan2 (det2 x1 y1 x2 y2) d)
    | _, _ => .error (.valueError "The vectors must be 2D.")  -- unreachable: lengths checked above

/-- `Vector.is_perpendicular(other, **kwargs)` (vector.py:466-506). -/
def isPerpendicular (tol : Tol K) (v other : List K) : Res Bool := do
  let d ← dot v other
  isclose tol d zero

/-- `Vector.is_parallel(other, **kwargs)` (vector.py:508-562). -/
def isParallel (tol : Tol K) (v other : List K) : Res Bool := do
  let z ← (do
    let z1 ← isZero tol v
    if z1 then pure true
    else do
      let o ← new1D other
      isZero tol o)
  if z then pure true
  else do
    let s ← cosineSimilarity v other
    isclose tol (PyNum.abs s) one

/-- `Vector.angle_signed_3d(other, direction_positive)` (vector.py:395-464). -/
def angleSigned3d (v other directionPositive : List K) : Res K := do
  let o ← new1D other
  let dp ← new1D directionPositive
  if !(decide (v.length = 3) && decide (o.length = 3) && decide (dp.length = 3)) then
    .error (.valueError "The vectors must be 3D.")
  else do
    let c ← cross v other
    let par ← isParallel Tol.default c directionPositive
    if !par then
      .error (.valueError
        "The positive direction vector must be perpendicular to the plane formed by the two main input vectors.")
    else do
      let u ← unit dp
      let y ← dot c u
      let x ← dot v other
      pure (PyNum.atan2 y x)

/-- `Vector.side_vector(other)` (vector.py:564-632). -/
def sideVector (v other : List K) : Res Int := do
  let o ← new1D other
  if v.length ≠ 2 ∨ o.length ≠ 2 then .error (.valueError "The vectors must be 2D.")
  else do
    let o3 ← setDimension 3 o
    let v3 ← setDimension 3 v
    let p ← cross3 o3 v3
    match p with
    | [_, _, z] => intSign z
    | _ => .error (.valueError "unreachable: np.cross of 3D vectors is 3D")

/-- `Vector.scalar_projection(other)` (vector.py:634-667). -/
def scalarProjection (v other : List K) : Res K := do
  let u ← unit v
  dot u other

/-- `Vector.project_vector(other)` (vector.py:669-700): `self.dot(other) / self.dot(self) * self`.
For the zero vector the quotient is `0/0`: NaN, no exception. -/
def projectVector (v other : List K) : Res (List K) := do
  let n ← dot v other
  let d ← dot v v
  pure (smul (n /. d) v)

/-- `np.zeros(n)` with entry `i` set to one (the item assignments of vector.py:750-755). -/
def basisVec (n i : Nat) : List K := (List.range n).map fun j => if j = i then one else zero

/-- `Vector.different_direction(**kwargs)` (vector.py:702-757). -/
def differentDirection (tol : Tol K) (v : List K) : Res (List K) := do
  let z ← isZero tol v
  if z then .error (.valueError "The vector must not be the zero vector.")
  else
    match v with
    | [x] => new1D [PyNum.neg (signNum x)]
    | _ => do
      let e0 ← new1D (basisVec v.length 0)
      let par ← isParallel tol v e0
      if par then pure (basisVec v.length 1) else pure e0

end Vec

namespace Pt

/-- `Point.distance_point(other)` (src/skspatial/objects/point.py:65-96). -/
def distancePoint (p other : List K) : Res K := do
  let v ← Vec.fromPoints p other
  pure (Vec.norm v)

end Pt
end SkSpatial
