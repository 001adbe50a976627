import Verif.Spec.Space
import Verif.Inst.Real
import Verif.Model.Num
/-! # Specification vocabulary: tolerances -/

namespace SkSpatial

/-- The documented meaning of `math.isclose`:
`abs(a-b) <= max(rel_tol * max(abs(a), abs(b)), abs_tol)`. -/
def Close (tol : Tol ℝ) (a b : ℝ) : Prop := |a - b| ≤ max (tol.rel * max |a| |b|) tol.abs

/-- Tolerances `math.isclose` accepts. -/
def Tol.Nonneg (tol : Tol ℝ) : Prop := 0 ≤ tol.rel ∧ 0 ≤ tol.abs

/-- Exact comparison: `rel_tol=0, abs_tol=0`. -/
def Tol.exact : Tol ℝ := ⟨0, 0⟩

/-- What `is_parallel` decides, for given tolerances. -/
def ParallelTol {n : ℕ} (tol : Tol ℝ) (x y : E n) : Prop :=
  Close tol (‖x‖ ^ 2) 0 ∨ Close tol (‖y‖ ^ 2) 0 ∨ Close tol |cosE x y| 1

/-- Exactly parallel: linearly dependent. -/
def ExactParallel {n : ℕ} (x y : E n) : Prop := ¬ LinearIndependent ℝ ![x, y]

end SkSpatial
