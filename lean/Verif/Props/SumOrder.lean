import Verif.Props.Binary64
/-!
# C98: the order of the additions in sums and dot products

NumPy and BLAS leave the order of the additions in `np.sum`, `np.dot` and `np.linalg.norm` open, and may fuse a product
with an addition.  The rounding theorems (C73–C81, C89–C95) are about every arithmetic with `StdRounding`; here it is shown
that every order is one, and what does depend on the order.
-/

namespace SkSpatial
open StdRounding

variable {u : ℝ} {fl : Arith} {n : ℕ}

/-- C98: if every operation has relative error at most `u` and the sums and dot products are evaluated in whatever order,
with or without fused multiply-add, then all the rounding theorems apply. -/
theorem C98_any_order (h0 : 0 ≤ u) (h1 : u < 1) (hf : ∀ x, |fl x - x| ≤ u * |x|) (hs0 : fl.sum [] = 0) (hd0 : fl.dot [] [] = 0)
    (hs : ∀ l, l ≠ [] → SumOrder fl.fl l (fl.sum l))
    (hd : ∀ a b, a.length = b.length → a ≠ [] → DotOrder fl.fl (a.zip b) (fl.dot a b)) : StdRounding u fl :=
  of_order h0 h1 hf hs0 hd0 hs hd

/-- C98: the distances of two points computed in two orders agree to `n + 5` relative errors, and one is zero if the other
is; `is_zero` and the constructors of `Line` and `Plane` do not depend on the order at all. -/
theorem C98_orders_agree [NeZero n] {fl' : Arith} (h : StdRounding u fl) (h' : StdRounding u fl') (hu : u ≤ 1 / 2) (x y : E n) :
    (∃ d d', @Pt.distancePoint ℝ (rounded fl) (arr x) (arr y) = .ok d ∧
      @Pt.distancePoint ℝ (rounded fl') (arr x) (arr y) = .ok d' ∧ ApproxRel u (n + 5) d d' ∧ (d = 0 ↔ d' = 0)) ∧
    @Vec.isZero ℝ (rounded fl) (@Tol.default ℝ (rounded fl)) (arr x) =
      @Vec.isZero ℝ (rounded fl') (@Tol.default ℝ (rounded fl')) (arr x) ∧
    @Line.new ℝ (rounded fl) (arr x) (arr y) = @Line.new ℝ (rounded fl') (arr x) (arr y) ∧
    @Plane.new ℝ (rounded fl) (arr x) (arr y) = @Plane.new ℝ (rounded fl') (arr x) (arr y) := by
  classical
  refine ⟨?_, ?_, ?_⟩
  · obtain ⟨d, hd, r⟩ := distancePoint_rp h x y
    obtain ⟨d', hd', r'⟩ := distancePoint_rp h' x y
    refine ⟨d, d', hd, hd', ?_, r.eq_zero.trans r'.eq_zero.symm⟩
    have := r.trans r'.symm
    rw [show ((n : ℝ) + 5) / 2 + (n + 5) / 2 = n + 5 by ring] at this
    exact h.approxRel this (r'.nonneg dist_nonneg)
  · rw [C73_is_zero h hu, C73_is_zero h' hu]
  · obtain ⟨a1, a2⟩ := C73_constructors h hu x y
    obtain ⟨b1, b2⟩ := C73_constructors h' hu x y
    by_cases hy : y = 0
    · have a3 := a2 hy
      have b3 := b2 hy
      exact ⟨by rw [a3.1, b3.1], by rw [a3.2, b3.2]⟩
    · have a3 := a1 hy
      have b3 := b1 hy
      exact ⟨by rw [a3.1, b3.1], by rw [a3.2, b3.2]⟩

/-- Sums and dot products from right to left, every product fused with the addition. -/
noncomputable def fusedRight (f : ℝ → ℝ) : Arith where
  fl := f
  sum := fun l => l.foldr (fun x s => f (s + x)) 0
  dot := fun a b => (a.zip b).foldr (fun p s => f (s + p.1 * p.2)) 0

theorem fusedRight_sum (f : ℝ → ℝ) : ∀ l, l ≠ [] → SumOrder f l ((fusedRight f).sum l)
  | [], h => absurd rfl h
  | [x], _ => .start x
  | x :: y :: l, _ => by
    have := fusedRight_sum f (y :: l) (by simp)
    exact .perm (List.perm_append_singleton x (y :: l)) (.add this (.one x))

theorem fusedRight_dot (f : ℝ → ℝ) : ∀ l : List (ℝ × ℝ), l ≠ [] → DotOrder f l (l.foldr (fun p s => f (s + p.1 * p.2)) 0)
  | [], h => absurd rfl h
  | [(x, y)], _ => .startFma x y
  | (x, y) :: q :: l, _ => .fma x y (fusedRight_dot f (q :: l) (by simp))

/-- The hypotheses of `C98_any_order` are met by binary64 rounding with this other order. -/
theorem fusedRight_std : StdRounding ((2 : ℝ) ^ (-((53 : ℕ) : ℤ))) (fusedRight (roundNearest 53)) :=
  C98_any_order std53.nonneg std53.lt_one std53.err rfl rfl (fusedRight_sum _) (fun a b hab ha => fusedRight_dot _ _ (by
    cases a with
    | nil => exact absurd rfl ha
    | cons x a => cases b with
      | nil => simp at hab
      | cons y b => simp))

example : ∃ d d', @Pt.distancePoint ℝ (rounded (leftToRight (roundNearest 53))) (arr (vec2 0.1 0.2)) (arr (vec2 0.3 0.7)) = .ok d ∧
      @Pt.distancePoint ℝ (rounded (fusedRight (roundNearest 53))) (arr (vec2 0.1 0.2)) (arr (vec2 0.3 0.7)) = .ok d' ∧
      ApproxRel (2 ^ (-((53 : ℕ) : ℤ))) ((2 : ℕ) + 5) d d' :=
  let ⟨d, d', a, b, c, _⟩ := (C98_orders_agree std53 fusedRight_std (by norm_num) (vec2 0.1 0.2) (vec2 0.3 0.7)).1
  ⟨d, d', a, b, c⟩

/-- C98: `is_perpendicular` does depend on the order.  The dot product of `(2⁵³, 1, -2⁵³)` and `(1, 1, 1)` is `1`; added
from left to right in binary64 it is `0`, and the method answers `True`; from right to left it answers `False`. -/
theorem C98_is_perpendicular_order_defect :
    (inner ℝ (vec3 (2 ^ 53) 1 (-2 ^ 53)) (vec3 1 1 1) : ℝ) = 1 ∧
    @Vec.isPerpendicular ℝ (rounded (leftToRight (roundNearest 53))) (@Tol.default ℝ (rounded (leftToRight (roundNearest 53))))
      (arr (vec3 (2 ^ 53) 1 (-2 ^ 53))) (arr (vec3 1 1 1)) = .ok true ∧
    @Vec.isPerpendicular ℝ (rounded (fusedRight (roundNearest 53))) (@Tol.default ℝ (rounded (fusedRight (roundNearest 53))))
      (arr (vec3 (2 ^ 53) 1 (-2 ^ 53))) (arr (vec3 1 1 1)) = .ok false := by
  classical
  have r0 : roundNearest 53 0 = 0 := roundNearest_zero
  have r1 : roundNearest 53 1 = 1 := by
    refine rn53 0 4503599627370496 ?_ ?_ ?_ ?_ ?_ <;> norm_num
  have r2 : roundNearest 53 (2 ^ 53) = 2 ^ 53 := by
    refine rn53 53 4503599627370496 ?_ ?_ ?_ ?_ ?_ <;> norm_num
  have r2' : roundNearest 53 (-2 ^ 53) = -2 ^ 53 := by rw [roundNearest_neg, r2]
  have r3 : roundNearest 53 (2 ^ 53 + 1) = 2 ^ 53 := by
    refine rn53_tie 53 4503599627370496 (by decide) ?_ ?_ ?_ ?_ ?_ <;> norm_num
  have r4 : roundNearest 53 (-2 ^ 53 + 1) = -2 ^ 53 + 1 := by
    refine rn53_neg 52 9007199254740991 ?_ ?_ ?_ ?_ ?_ <;> norm_num
  have hl : @dotv ℝ (rounded (leftToRight (roundNearest 53))) (arr (vec3 (2 ^ 53) 1 (-2 ^ 53))) (arr (vec3 1 1 1)) = 0 := by
    rw [show arr (vec3 (2 ^ 53) 1 (-2 ^ 53)) = [2 ^ 53, 1, -2 ^ 53] by simp [arr, vec3, List.ofFn_succ],
      show arr (vec3 1 1 1) = [1, 1, 1] by simp [arr, vec3, List.ofFn_succ], dotv_3]
    simp only [mul_one, r0, r1, r2, r2', r3, zero_add, add_neg_cancel]
  have hr : @dotv ℝ (rounded (fusedRight (roundNearest 53))) (arr (vec3 (2 ^ 53) 1 (-2 ^ 53))) (arr (vec3 1 1 1)) = 1 := by
    rw [show arr (vec3 (2 ^ 53) 1 (-2 ^ 53)) = [2 ^ 53, 1, -2 ^ 53] by simp [arr, vec3, List.ofFn_succ],
      show arr (vec3 1 1 1) = [1, 1, 1] by simp [arr, vec3, List.ofFn_succ]]
    show roundNearest 53 (roundNearest 53 (roundNearest 53 (0 + -2 ^ 53 * 1) + 1 * 1) + 2 ^ 53 * 1) = 1
    simp only [mul_one, zero_add, r2', r4]
    rw [show (-2 ^ 53 + 1 + 2 ^ 53 : ℝ) = 1 by ring, r1]
  refine ⟨?_, ?_, ?_⟩
  · rw [inner3]; simp [vec3]
  · simp only [Vec.isPerpendicular, dot_rd, ok_bind, hl]
    rw [isclose_zero_rd std53 (by norm_num)]; simp
  · simp only [Vec.isPerpendicular, dot_rd, ok_bind, hr]
    rw [isclose_zero_rd fusedRight_std (by norm_num)]; simp

end SkSpatial
