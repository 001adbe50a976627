import Verif.Inst.Real
/-!
# Rounded arithmetic: `K = ℝ` with every arithmetic result rounded by a function `fl`

One instance of `PyNum` for every `A : Arith`: a rounding `fl : ℝ → ℝ` and implementations of sums and dot products.  Comparisons, `abs`, negation and integer literals are
exact, as in IEEE 754; every other operation is the exact one followed by `fl`.  Which functions `fl` a
theorem is about is said by its hypotheses (`Spec/Rounding.lean`).  The inputs are arbitrary reals, in
particular all those that are floating-point numbers.  There are no infinities here; overflow and NaN
are the subject of `XReal`.
-/

namespace SkSpatial

/-- An arithmetic with rounding: the rounding of one operation, and the implementations of sums and dot products (whose
order of operations, and use of fused multiply-add, NumPy and BLAS leave open). -/
structure Arith where
  fl : ℝ → ℝ
  sum : List ℝ → ℝ
  dot : List ℝ → List ℝ → ℝ

instance : CoeFun Arith (fun _ => ℝ → ℝ) := ⟨Arith.fl⟩

/-- Sums and dot products from left to right, starting from `0`, with every operation rounded. -/
noncomputable def leftToRight (fl : ℝ → ℝ) : Arith where
  fl := fl
  sum := fun l => l.foldl (fun a b => fl (a + b)) 0
  dot := fun a b => (List.zipWith (fun x y => fl (x * y)) a b).foldl (fun a b => fl (a + b)) 0

@[simp] theorem leftToRight_fl (f : ℝ → ℝ) : (leftToRight f).fl = f := rfl

open Classical in
/-- Arithmetic on `ℝ` followed by the rounding `fl`. -/
@[reducible] noncomputable def rounded (fl : Arith) : PyNum ℝ where
  sum := fl.sum
  dot := fl.dot
  add := fun x y => fl (x + y)
  sub := fun x y => fl (x - y)
  mul := fun x y => fl (x * y)
  div := fun x y => fl (x / y)
  neg := fun x => -x
  ofInt := fun n => (n : ℝ)
  lt := fun a b => decide (a < b)
  le := fun a b => decide (a ≤ b)
  eq := fun a b => decide (a = b)
  isFinite := fun _ => true
  abs := fun x => |x|
  toFloat := fun x => x
  sqrt := fun x => fl (Real.sqrt x)
  sin := fun x => fl (Real.sin x)
  cos := fun x => fl (Real.cos x)
  acos := fun x => fl (Real.arccos x)
  atan2 := fun y x => fl (Complex.arg ⟨x, y⟩)
  pi := fl Real.pi
  rint := rintReal

section
variable (fl : Arith) (a b : ℝ)
theorem add_rd : @PyNum.add ℝ (rounded fl) a b = fl (a + b) := rfl
theorem sub_rd : @PyNum.sub ℝ (rounded fl) a b = fl (a - b) := rfl
theorem mul_rd : @PyNum.mul ℝ (rounded fl) a b = fl (a * b) := rfl
theorem div_rd : @PyNum.div ℝ (rounded fl) a b = fl (a / b) := rfl
theorem neg_rd : @PyNum.neg ℝ (rounded fl) a = -a := rfl
theorem lt_rd : @PyNum.lt ℝ (rounded fl) a b = decide (a < b) := by
  show @decide _ _ = @decide _ _
  congr
theorem le_rd : @PyNum.le ℝ (rounded fl) a b = decide (a ≤ b) := by
  show @decide _ _ = @decide _ _
  congr
theorem eq_rd : @PyNum.eq ℝ (rounded fl) a b = decide (a = b) := by
  show @decide _ _ = @decide _ _
  congr
theorem isFinite_rd : @PyNum.isFinite ℝ (rounded fl) a = true := rfl
@[simp] theorem toFloat_rd : @PyNum.toFloat ℝ (rounded fl) a = a := rfl
theorem abs_rd : @PyNum.abs ℝ (rounded fl) a = |a| := rfl
theorem sqrt_rd : @PyNum.sqrt ℝ (rounded fl) a = fl (Real.sqrt a) := rfl
theorem acos_rd : @PyNum.acos ℝ (rounded fl) a = fl (Real.arccos a) := rfl
theorem atan2_rd : @PyNum.atan2 ℝ (rounded fl) a b = fl (Complex.arg ⟨b, a⟩) := rfl
theorem ofInt_rd (n : Int) : @PyNum.ofInt ℝ (rounded fl) n = (n : ℝ) := rfl
theorem zero_rd : @zero ℝ (rounded fl) = 0 := by simp [zero, ofInt_rd]
theorem one_rd : @one ℝ (rounded fl) = 1 := by simp [one, ofInt_rd]
theorem two_rd : @two ℝ (rounded fl) = 2 := by simp [two, ofInt_rd]
theorem half_rd : @half ℝ (rounded fl) = fl (1 / 2) := by simp [half, ofInt_rd, div_rd]
theorem sq_rd : @sq ℝ (rounded fl) a = fl (a * a) := rfl
end

end SkSpatial
