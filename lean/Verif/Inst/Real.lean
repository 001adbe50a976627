import Mathlib.Analysis.SpecialFunctions.Complex.Arg
import Mathlib.Analysis.SpecialFunctions.Trigonometric.Inverse
import Mathlib.Analysis.Real.Sqrt
import Verif.Model.Num
/-!
# The exact instance: `K = ℝ`

Every operation is the mathematical one.  Division by zero is Mathlib's `x / 0 = 0` and `sqrt` of a
negative number is `0`: the theorems about `ℝ` therefore always carry the hypotheses that exclude these
cases (the code's own guards), and the NaN behaviour is stated on `XReal` instead.
-/

namespace SkSpatial

open Classical in
/-- Round half to even. -/
noncomputable def rintReal (x : ℝ) : ℝ :=
  if Int.fract x < 1 / 2 then (⌊x⌋ : ℝ)
  else if 1 / 2 < Int.fract x then (⌊x⌋ : ℝ) + 1
  else if Even ⌊x⌋ then (⌊x⌋ : ℝ) else (⌊x⌋ : ℝ) + 1

open Classical in
noncomputable instance instPyNumReal : PyNum ℝ where
  add := (· + ·)
  sub := (· - ·)
  mul := (· * ·)
  div := (· / ·)
  neg := fun x => -x
  ofInt := fun n => (n : ℝ)
  lt := fun a b => decide (a < b)
  le := fun a b => decide (a ≤ b)
  eq := fun a b => decide (a = b)
  isFinite := fun _ => true
  abs := fun x => |x|
  toFloat := fun x => x
  sqrt := Real.sqrt
  sin := Real.sin
  cos := Real.cos
  acos := Real.arccos
  atan2 := fun y x => Complex.arg ⟨x, y⟩
  pi := Real.pi
  rint := rintReal

section
variable (a b : ℝ)
@[simp] theorem add_real : a +. b = a + b := rfl
@[simp] theorem sub_real : a -. b = a - b := rfl
@[simp] theorem mul_real : a *. b = a * b := rfl
@[simp] theorem div_real : a /. b = a / b := rfl
@[simp] theorem neg_real : PyNum.neg a = -a := rfl
@[simp] theorem lt_real : (a <. b) = decide (a < b) := by
  show @decide _ _ = @decide _ _
  congr
@[simp] theorem le_real : (a <=. b) = decide (a ≤ b) := by
  show @decide _ _ = @decide _ _
  congr
@[simp] theorem eq_real : (a ==. b) = decide (a = b) := by
  show @decide _ _ = @decide _ _
  congr
@[simp] theorem isFinite_real : PyNum.isFinite a = true := rfl
@[simp] theorem abs_real : PyNum.abs a = |a| := rfl
@[simp] theorem toFloat_real : PyNum.toFloat a = a := rfl
@[simp] theorem sqrt_real : PyNum.sqrt a = Real.sqrt a := rfl
@[simp] theorem sin_real : PyNum.sin a = Real.sin a := rfl
@[simp] theorem cos_real : PyNum.cos a = Real.cos a := rfl
@[simp] theorem acos_real : PyNum.acos a = Real.arccos a := rfl
@[simp] theorem atan2_real : PyNum.atan2 a b = Complex.arg ⟨b, a⟩ := rfl
@[simp] theorem pi_real : (PyNum.pi : ℝ) = Real.pi := rfl
theorem rint_real : PyNum.rint a = rintReal a := rfl
@[simp] theorem ofInt_real (n : Int) : (PyNum.ofInt n : ℝ) = (n : ℝ) := rfl
@[simp] theorem zero_real : (zero : ℝ) = 0 := by simp [zero]
@[simp] theorem one_real : (one : ℝ) = 1 := by simp [one]
@[simp] theorem two_real : (two : ℝ) = 2 := by simp [two]
@[simp] theorem half_real : (half : ℝ) = 1 / 2 := by simp [half]
@[simp] theorem sq_real : sq a = a ^ 2 := by simp [sq, pow_two]
@[simp] theorem cube_real : cube a = a ^ 3 := by simp [cube]; ring
end

end SkSpatial
