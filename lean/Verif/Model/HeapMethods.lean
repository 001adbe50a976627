import Verif.Model.Heap
import Verif.Model.Plane
/-!
# Methods that return compound objects, as operations on memory

`n` is the number of earlier operations, so that the operations below return the objects `n`, `n + 1`, ...;
the last one is the result of the method.
-/

namespace SkSpatial
namespace Mem
variable {K : Type} [PyNum K]

/-- `Vector.from_points(a, b)` (vector.py:99-101): `np.subtract` allocates. -/
def vectorFromPointsFn : List (NDArray K) → Res (NDArray K)
  | [a, b] => do
    let v ← Vec.fromPoints a.data b.data
    pure ⟨[v.length], v⟩
  | _ => .error (.typeError "wrong number of arguments")

/-- The checks of `Line(point, direction)` (_base_line_plane.py:17-27). -/
def checkLine : List (List K) → Res Unit
  | [p, d] => do
    let _ ← Line.new p d
    pure ()
  | _ => .error (.typeError "wrong number of arguments")

/-- `Line.from_points(a, b)` (line.py:117-119) for existing arrays `j`, `k`. -/
def lineFromPointsOps (n j k : Nat) : List (Op K) :=
  [.call vectorFromPointsFn [(j, 0), (k, 0)], .build checkLine [.obj j, .obj n]]

/-- `triangle.line(side)` (triangle.py:306-318) for the triangle `T` (arrays 0, 1, 2: the vertices A, B, C). -/
def triangleLineOps (n T : Nat) : String → Res (List (Op K))
  | "a" => .ok ([.field T 1, .field T 2] ++ lineFromPointsOps (n + 2) n (n + 1))
  | "b" => .ok ([.field T 2, .field T 0] ++ lineFromPointsOps (n + 2) n (n + 1))
  | "c" => .ok ([.field T 0, .field T 1] ++ lineFromPointsOps (n + 2) n (n + 1))
  | _ => .error (.valueError "The side must be 'a', 'b', or 'c'.")

/-- `plane.project_point(point)` (plane.py:267-272): the sum is a new array. -/
def planeProjectPointFn : List (NDArray K) → Res (NDArray K)
  | [p, m, q] => do
    let v ← Plane.projectPoint ⟨p.data, m.data⟩ q.data
    pure ⟨[v.length], v⟩
  | _ => .error (.typeError "wrong number of arguments")

/-- `plane.project_vector(vector)` (plane.py:328-332): a new array. -/
def planeProjectVectorFn : List (NDArray K) → Res (NDArray K)
  | [p, m, d] => do
    let v ← Plane.projectVector ⟨p.data, m.data⟩ d.data
    pure ⟨[v.length], v⟩
  | _ => .error (.typeError "wrong number of arguments")

/-- `plane.project_line(line, **kwargs)` (plane.py:370-382) for the plane `P` (arrays 0: point, 1: normal) and the
line `L` (arrays 0: point, 1: direction): the operations it performs in the state `s`, or its exception. -/
def projectLineOps (tol : Tol K) (s : State K) (n P L : Nat) : Res (List (Op K)) := do
  let m ← s.arrayAt (P, 1)
  let d ← s.arrayAt (L, 1)
  let par ← Vec.isParallel tol m.data d.data
  if par then .error (.valueError "The line and plane must not be perpendicular.")
  else do
    let perp ← Vec.isPerpendicular tol m.data d.data
    if perp then   -- `Line(point_projected, line.vector)`
      pure [.call planeProjectPointFn [(P, 0), (P, 1), (L, 0)], .field L 1, .build checkLine [.obj n, .obj (n + 1)]]
    else           -- `Line(point_projected, vector_projected)`
      pure [.call planeProjectPointFn [(P, 0), (P, 1), (L, 0)], .call planeProjectVectorFn [(P, 0), (P, 1), (L, 1)],
        .build checkLine [.obj n, .obj (n + 1)]]

end Mem
end SkSpatial
