import Verif.Spec.Rounding
/-! # What is assumed of a floating-point determinant -/

namespace SkSpatial

/-- `det` evaluates 2x2 determinants with an error of at most `δ (|a d| + |b c|)`. -/
def StableDet (δ : ℝ) (det : ℝ → ℝ → ℝ → ℝ → ℝ) : Prop :=
  0 ≤ δ ∧ ∀ a b c d, |det a b c d - (a * d - b * c)| ≤ δ * (|a * d| + |b * c|)

/-- `det` evaluates 3x3 determinants with an error of at most `δ` times the product of the largest entries of the three columns.
(Gaussian elimination with partial pivoting does so column by column: the multipliers are at most 1.) -/
def StableDet3 (δ : ℝ) (det : ℝ → ℝ → ℝ → ℝ → ℝ → ℝ → ℝ → ℝ → ℝ → ℝ) : Prop :=
  0 ≤ δ ∧ ∀ a b c d e f g h i, |det a b c d e f g h i - (a * (e * i - f * h) - b * (d * i - f * g) + c * (d * h - e * g))| ≤
    δ * (max |a| (max |d| |g|) * max |b| (max |e| |h|) * max |c| (max |f| |i|))

/-- Two angles agree up to `δ`, modulo full turns. -/
def AngleNear (δ θ' θ : ℝ) : Prop := ∃ k : ℤ, |θ' - θ - 2 * Real.pi * k| ≤ δ

end SkSpatial
