import Mathlib.Analysis.SpecialFunctions.Pow.Real
import Mathlib.Data.Int.Log
import Verif.Inst.Rounded
import Verif.Spec.Space
/-!
# Specification vocabulary: floating-point rounding

`StdRounding u fl` is the *standard model* of floating-point arithmetic (Higham, "Accuracy and Stability of
Numerical Algorithms", §2.2): the rounded result of an operation has relative error at most `u`.  IEEE
binary64 satisfies it with `u = 2⁻⁵³` as long as no operation underflows or overflows.  That the model is
not vacuous is shown by `roundNearest` below, rounding to nearest even with `p` significant bits (and an
unbounded exponent), see `Lemmas/Rounding.lean`.
-/

namespace SkSpatial

/-- `s` is the exact sum of the numbers of `l`, each of them perturbed by `k` relative errors of size `u`: multiplied by a
factor between `(1-u)^k` and `(1-u)^(-k)`.  (Backward stability.) -/
def Backward (u : ℝ) (k : ℕ) (l : List ℝ) (s : ℝ) : Prop :=
  ∃ θ : List ℝ, θ.length = l.length ∧ (∀ t ∈ θ, (1 - u) ^ k ≤ t ∧ (1 - u) ^ k * t ≤ 1) ∧
    s = (List.zipWith (· * ·) l θ).sum

/-- Every rounded result has relative error at most `u`, a sum of `n` numbers perturbs each of them by at most `n` such
errors, and a dot product of `n` terms perturbs each by at most `n + 1`.  Every order of the additions does so, with or
without fused multiply-add (`C98_any_order`). -/
structure StdRounding (u : ℝ) (fl : Arith) : Prop where
  nonneg : 0 ≤ u
  lt_one : u < 1
  err : ∀ x, |fl x - x| ≤ u * |x|
  sum : ∀ l, Backward u l.length l (fl.sum l)
  dot : ∀ a b, a.length = b.length → Backward u (a.length + 1) (List.zipWith (· * ·) a b) (fl.dot a b)

/-- The rounded sum of the numbers of `l` in some order: any binary tree of additions, over any permutation of the
numbers, every partial sum optionally starting from `0`. -/
inductive SumOrder (fl : ℝ → ℝ) : List ℝ → ℝ → Prop
  | one (x : ℝ) : SumOrder fl [x] x
  | start (x : ℝ) : SumOrder fl [x] (fl (0 + x))
  | add {l m : List ℝ} {s t : ℝ} : SumOrder fl l s → SumOrder fl m t → SumOrder fl (l ++ m) (fl (s + t))
  | perm {l m : List ℝ} {s : ℝ} : l.Perm m → SumOrder fl l s → SumOrder fl m s

/-- The rounded sum of the products of the pairs of `l` in some order: any binary tree of additions, over any permutation
of the pairs; a product is rounded before it is added, or fused with the addition (`fma`). -/
inductive DotOrder (fl : ℝ → ℝ) : List (ℝ × ℝ) → ℝ → Prop
  | one (x y : ℝ) : DotOrder fl [(x, y)] (fl (x * y))
  | start (x y : ℝ) : DotOrder fl [(x, y)] (fl (0 + fl (x * y)))
  | add {l m : List (ℝ × ℝ)} {s t : ℝ} : DotOrder fl l s → DotOrder fl m t → DotOrder fl (l ++ m) (fl (s + t))
  | fma {l : List (ℝ × ℝ)} {s : ℝ} (x y : ℝ) : DotOrder fl l s → DotOrder fl ((x, y) :: l) (fl (s + x * y))
  | startFma (x y : ℝ) : DotOrder fl [(x, y)] (fl (0 + x * y))
  | perm {l m : List (ℝ × ℝ)} {s : ℝ} : l.Perm m → DotOrder fl l s → DotOrder fl m s

/-- The dot product depends on the products of the coordinates only, as with any fixed order of the additions, with or
without fused multiply-add. -/
def Arith.ByProducts (fl : Arith) : Prop :=
  ∀ a b c d : List ℝ, List.zipWith (· * ·) a b = List.zipWith (· * ·) c d → fl.dot a b = fl.dot c d

/-- Round to nearest, ties to even, with `p` significant bits and an unbounded exponent: with
`2^e ≤ |x| < 2^(e+1)` the multiple of `2^(e+1-p)` nearest to `x`. -/
noncomputable def roundNearest (p : ℕ) (x : ℝ) : ℝ :=
  rintReal (x * (2 : ℝ) ^ ((p : ℤ) - 1 - Int.log 2 |x|)) / (2 : ℝ) ^ ((p : ℤ) - 1 - Int.log 2 |x|)

/-- `a` approximates the non-negative number `x` with `k` relative errors of size `u`:
`(1-u)^k x ≤ a ≤ x / (1-u)^k`. -/
def ApproxRel (u : ℝ) (k : ℝ) (a x : ℝ) : Prop := (1 - u) ^ k * x ≤ a ∧ (1 - u) ^ k * a ≤ x

/-- The exact signed distance of `x` from the plane through `p` with normal `m`. -/
noncomputable def signedDist {n : ℕ} (p m x : E n) : ℝ := inner ℝ (x - p) m / ‖m‖

/-- The foot of the perpendicular from `x` on the line through `p` with direction `v`. -/
noncomputable def foot {n : ℕ} (p v x : E n) : E n := p + (inner ℝ (x - p) v / ‖v‖ ^ 2) • v

/-- Two non-negative numbers differ by at most the fraction `δ` of the larger one. -/
def RelDiff (δ x y : ℝ) : Prop := |x - y| ≤ δ * max x y

/-- The conditioning of the law of cosines at the vertex `a` of the triangle `a b c`:
`(|bc|² + |ca|² + |ab|²) / (2 |ca| |ab|)`. -/
noncomputable def lawCond {n : ℕ} (a b c : E n) : ℝ :=
  (dist b c ^ 2 + dist c a ^ 2 + dist a b ^ 2) / (2 * dist c a * dist a b)

end SkSpatial
