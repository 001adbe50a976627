import Verif.Inst.Real
/-!
# Reals with NaN and infinities: `K = XReal`

IEEE comparison rules: every comparison with NaN is false.  Finite results are exact (no rounding, no
overflow).  Simplification: there is one zero, so `x / 0` is `+inf` for `x > 0` and `-inf` for `x < 0`
(in IEEE the sign of the zero also counts).
-/

namespace SkSpatial

/-- A real number, an infinity or NaN. -/
inductive XReal where
  | fin (x : ℝ)
  | posInf
  | negInf
  | nan

namespace XReal

noncomputable section
open Classical

/-- Addition: `inf + (-inf)` is NaN. -/
def add : XReal → XReal → XReal
  | fin a, fin b => fin (a + b)
  | nan, _ => nan
  | _, nan => nan
  | posInf, negInf => nan
  | negInf, posInf => nan
  | posInf, _ => posInf
  | _, posInf => posInf
  | negInf, _ => negInf
  | _, negInf => negInf

def neg : XReal → XReal
  | fin a => fin (-a)
  | posInf => negInf
  | negInf => posInf
  | nan => nan

/-- The infinity (or NaN) that an infinity times a number of this sign gives. -/
def ofSign (s : ℝ) : XReal := if 0 < s then posInf else if s < 0 then negInf else nan

/-- A real with the sign of `x` (`0` for NaN). -/
def sgn : XReal → ℝ
  | fin a => a
  | posInf => 1
  | negInf => -1
  | nan => 0

/-- Multiplication: `0 * inf` is NaN. -/
def mul : XReal → XReal → XReal
  | fin a, fin b => fin (a * b)
  | x, y => ofSign (sgn x * sgn y)

/-- Division: `0 / 0` and `inf / inf` are NaN, `x / inf = 0`, `x / 0` is infinite. -/
def div : XReal → XReal → XReal
  | fin a, fin b => if b = 0 then ofSign a else fin (a / b)
  | fin _, posInf => fin 0
  | fin _, negInf => fin 0
  | posInf, fin b => if b = 0 then posInf else ofSign b
  | negInf, fin b => if b = 0 then negInf else ofSign (-b)
  | _, _ => nan

def lt : XReal → XReal → Bool
  | fin a, fin b => decide (a < b)
  | fin _, posInf => true
  | negInf, fin _ => true
  | negInf, posInf => true
  | _, _ => false

def eq : XReal → XReal → Bool
  | fin a, fin b => decide (a = b)
  | posInf, posInf => true
  | negInf, negInf => true
  | _, _ => false

def le (x y : XReal) : Bool := lt x y || eq x y

def isFinite : XReal → Bool
  | fin _ => true
  | _ => false

def abs : XReal → XReal
  | fin a => fin |a|
  | posInf => posInf
  | negInf => posInf
  | nan => nan

def sqrt : XReal → XReal
  | fin a => if a < 0 then nan else fin (Real.sqrt a)
  | posInf => posInf
  | negInf => nan
  | nan => nan

/-- Lift a function defined on the finite values only. -/
def lift (f : ℝ → ℝ) : XReal → XReal
  | fin a => fin (f a)
  | _ => nan

def acos : XReal → XReal
  | fin a => if a < -1 ∨ 1 < a then nan else fin (Real.arccos a)
  | _ => nan

/-- `atan2` on finite values (the library never passes infinities to it without NaN). -/
def atan2 : XReal → XReal → XReal
  | fin y, fin x => fin (Complex.arg ⟨x, y⟩)
  | _, _ => nan

def rint : XReal → XReal
  | fin a => fin (rintReal a)
  | x => x

instance instPyNumXReal : PyNum XReal where
  add := add
  sub := fun x y => add x (neg y)
  mul := mul
  div := div
  neg := neg
  ofInt := fun n => fin (n : ℝ)
  lt := lt
  le := le
  eq := eq
  isFinite := isFinite
  abs := abs
  toFloat := id
  sqrt := sqrt
  sin := lift Real.sin
  cos := lift Real.cos
  acos := acos
  atan2 := atan2
  pi := fin Real.pi
  rint := rint

/-- Arithmetic on `XReal` followed by an arbitrary rounding `fl` of every arithmetic result: one
instance for every function `fl`, with no assumption on it.  Comparisons, `abs`, negation and literals
are exact, as in IEEE. -/
@[reducible] def roundedNum (fl : XReal → XReal) : PyNum XReal where
  add := fun x y => fl (add x y)
  sub := fun x y => fl (add x (neg y))
  mul := fun x y => fl (mul x y)
  div := fun x y => fl (div x y)
  neg := neg
  ofInt := fun n => fin (n : ℝ)
  lt := lt
  le := le
  eq := eq
  isFinite := isFinite
  abs := abs
  toFloat := id
  sqrt := fun x => fl (sqrt x)
  sin := fun x => fl (lift Real.sin x)
  cos := fun x => fl (lift Real.cos x)
  acos := fun x => fl (acos x)
  atan2 := fun y x => fl (atan2 y x)
  pi := fl (fin Real.pi)
  rint := rint

end
end XReal
end SkSpatial
