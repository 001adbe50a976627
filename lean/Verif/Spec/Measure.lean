import Verif.Spec.Space
import Mathlib.LinearAlgebra.Matrix.Notation
/-! # Specification of signed areas -/

namespace SkSpatial

/-- The planar cross product (determinant) of two vectors. -/
def det2E (u v : E 2) : ℝ := u 0 * v 1 - u 1 * v 0

/-- The signed area of the polygon with vertices `v 0, ..., v (m - 1)` (shoelace formula; the vertex
after the last one is the first one). -/
noncomputable def shoelace {m : ℕ} [NeZero m] (v : Fin m → E 2) : ℝ :=
  1 / 2 * ∑ i, det2E (v i) (v (i + 1))

/-- The (unsigned) volume of the tetrahedron is a sixth of the absolute determinant of this matrix. -/
def tetraMatrix (v : Fin 4 → E 3) : Matrix (Fin 4) (Fin 4) ℝ :=
  Matrix.of fun i => ![v i 0, v i 1, v i 2, 1]

end SkSpatial
