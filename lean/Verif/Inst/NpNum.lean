import Verif.Inst.Real
/-!
# 64-bit integers beside reals: `K = NpNum`

`np.array([1, 2])` is an array of dtype `int64` and stays one under `+`, `-`, `*`, `np.dot`, `np.cross`, `np.sum`,
`np.pad` and `abs`; these operations wrap modulo `2^64` without an exception.  Division, `np.linalg.norm`,
`np.linalg.det`, the mean and `math.isclose` convert to floats, as does an operation with one float operand.  This
instance has both kinds of numbers.  Simplifications: floats are exact reals; an integer stands for a NumPy
integer, not for an (unbounded) Python integer, so it is used only for the methods whose numbers all come from
arrays; on Windows before NumPy 2 the default is 32 bits.
-/

namespace SkSpatial

/-- A NumPy number: `np.int64` or `np.float64`. -/
inductive NpNum where
  | int (i : ℤ)
  | flt (r : ℝ)

namespace NpNum

/-- Two's-complement wrapping: the number in `[-2^63, 2^63)` congruent to `i` modulo `2^64`. -/
def wrap (i : ℤ) : ℤ := Int.bmod i (2 ^ 64)

noncomputable section
open Classical

/-- The number itself. -/
def val : NpNum → ℝ
  | int i => i
  | flt r => r

/-- A binary operation: wrapped on two integers, on floats otherwise. -/
def lift2 (f : ℤ → ℤ → ℤ) (g : ℝ → ℝ → ℝ) : NpNum → NpNum → NpNum
  | int i, int j => int (wrap (f i j))
  | x, y => flt (g (val x) (val y))

/-- A unary operation: wrapped on an integer. -/
def lift1 (f : ℤ → ℤ) (g : ℝ → ℝ) : NpNum → NpNum
  | int i => int (wrap (f i))
  | flt r => flt (g r)

/-- NumPy arithmetic on `int64` and `float64`. -/
instance instPyNumNpNum : PyNum NpNum where
  add := lift2 (· + ·) (· + ·)
  sub := lift2 (· - ·) (· - ·)
  mul := lift2 (· * ·) (· * ·)
  div := fun x y => flt (val x / val y)
  neg := lift1 (fun i => -i) (fun r => -r)
  ofInt := fun n => int n
  lt := fun x y => decide (val x < val y)
  le := fun x y => decide (val x ≤ val y)
  eq := fun x y => decide (val x = val y)
  isFinite := fun _ => true
  abs := lift1 (fun i => |i|) (fun r => |r|)
  toFloat := fun x => flt (val x)
  sqrt := fun x => flt (Real.sqrt (val x))
  sin := fun x => flt (Real.sin (val x))
  cos := fun x => flt (Real.cos (val x))
  acos := fun x => flt (Real.arccos (val x))
  atan2 := fun y x => flt (Complex.arg ⟨val x, val y⟩)
  pi := flt Real.pi
  rint := fun x => match x with
    | int i => int i
    | flt r => flt (rintReal r)

end
end NpNum
end SkSpatial
