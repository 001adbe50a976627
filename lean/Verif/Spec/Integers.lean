import Verif.Inst.NpNum
import Verif.Spec.Space
/-! # Integer arrays: specification vocabulary -/

namespace SkSpatial

/-- The numbers an `int64` can hold. -/
def Int64 (i : ℤ) : Prop := -2 ^ 63 ≤ i ∧ i < 2 ^ 63

/-- The NumPy array of dtype `int64` with these entries. -/
def ints {n : ℕ} (z : Fin n → ℤ) : List NpNum := List.ofFn fun i => NpNum.int (z i)

/-- The NumPy array of dtype `float64` with these entries. -/
def floats {n : ℕ} (x : E n) : List NpNum := List.ofFn fun i => NpNum.flt (x i)

/-- The point or vector with integer coordinates `z`. -/
def ofInts {n : ℕ} (z : Fin n → ℤ) : E n := WithLp.toLp 2 fun i => (z i : ℝ)

end SkSpatial
