import Verif.Model.Points
/-! # `src/skspatial/measurement.py` -/

namespace SkSpatial
variable {K : Type} [PyNum K]
namespace Measurement

/-- `area_triangle(point_a, point_b, point_c)` (measurement.py:9-49). -/
def areaTriangle (a b c : List K) : Res K := do
  let ab ← Vec.fromPoints a b
  let ac ← Vec.fromPoints a c
  let n ← Vec.cross ab ac
  pure (half *. Vec.norm n)

/-- `volume_tetrahedron(point_a, point_b, point_c, point_d)` (measurement.py:52-100). -/
def volumeTetrahedron (a b c d : List K) : Res K := do
  let ab ← Vec.fromPoints a b
  let ac ← Vec.fromPoints a c
  let ad ← Vec.fromPoints a d
  let x ← Vec.cross ac ad
  let ab ← setDimension 3 ab
  let v ← dot ab x
  pure (PyNum.ofInt 1 /. PyNum.ofInt 6 *. PyNum.abs v)

/-- `area_signed(points)` (measurement.py:103-162).  `indices_offset[0] = -1` selects the last point:
vertex `i` is paired with vertex `i - 1`, cyclically. -/
def areaSigned (points : List (List K)) : Res K := do
  let ps ← newPoints points
  if rowDim ps ≠ 2 then .error (.valueError "The points must be 2D.")
  else if ps.length < 3 then .error (.valueError "There must be at least 3 points.")
  else
    let n := ps.length
    let X := column ps 0
    let Y := column ps 1
    let prev := fun (i : Nat) => if i = 0 then n - 1 else i - 1
    pure (half *. sumL ((List.range n).map fun i =>
      X.getD (prev i) zero *. Y.getD i zero -. X.getD i zero *. Y.getD (prev i) zero))

end Measurement
end SkSpatial
