import Verif.Spec.Rounding
/-!
# Specification vocabulary: exact scaling in floating point

Multiplying by a power of two and changing the sign are exact in binary floating point (away from overflow and
underflow): they commute with rounding.
-/

namespace SkSpatial

/-- Rounding, sums and dot products commute with powers of two and with the sign; a dot product depends on the products
of the coordinates only. -/
structure Arith.ExactScaling (A : Arith) : Prop where
  fl : ∀ (k : ℤ) (x : ℝ), A.fl (2 ^ k * x) = 2 ^ k * A.fl x
  fl_neg : ∀ x : ℝ, A.fl (-x) = -A.fl x
  sum : ∀ (k : ℤ) (l : List ℝ), A.sum (l.map fun x => 2 ^ k * x) = 2 ^ k * A.sum l
  sum_neg : ∀ l : List ℝ, A.sum (l.map fun x => -x) = -A.sum l
  dot : ∀ (k : ℤ) (a b : List ℝ), A.dot (a.map fun x => 2 ^ k * x) b = 2 ^ k * A.dot a b
  dot_neg : ∀ a b : List ℝ, A.dot (a.map fun x => -x) b = -A.dot a b
  byProducts : A.ByProducts

/-- Change the unit of length by the factor `2^k` and turn around the axes chosen by `s`. -/
noncomputable def rescale {n : ℕ} (s : Fin n → Bool) (k : ℤ) (x : E n) : E n :=
  WithLp.toLp 2 fun i => if s i then -(2 ^ k * x i) else 2 ^ k * x i

/-- Two calls have the same outcome: both return, with related results, or both raise the same exception. -/
def SameOutcome {α β : Type} (R : α → β → Prop) (a : Res α) (b : Res β) : Prop :=
  match a, b with
  | .ok x, .ok y => R x y
  | .error e, .error f => e = f
  | _, _ => False

/-- The second array is the first one, rescaled. -/
def Rescaled {n : ℕ} (s : Fin n → Bool) (k : ℤ) (v w : List ℝ) : Prop := ∃ x : E n, v = arr x ∧ w = arr (rescale s k x)

/-- The second number is the first one times `2^k`. -/
def Times (k : ℤ) (x y : ℝ) : Prop := y = 2 ^ k * x

/-- The orientation of space is reversed if an odd number of axes is turned around. -/
def parity {n : ℕ} (s : Fin n → Bool) : ℤ := ∏ i, if s i then -1 else 1

end SkSpatial
