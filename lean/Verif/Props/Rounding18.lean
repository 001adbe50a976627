import Verif.Props.Rounding17
import Verif.Props.Scaling2
import Verif.Lemmas.Binary64Cyl
/-! # C111: lines that are parallel to the axis of a cylinder -/

namespace SkSpatial
open StdRounding Binary64

variable {u : ℝ} {fl : Arith} {n : ℕ}

local notation "b64" => rounded (leftToRight (roundNearest 53))

/-- C111: in binary64 `cylinder.intersect_line(line)` does not notice that the line is parallel to the axis: for the cylinder of radius 1
around the line through the origin with direction `(1, 1, 0)` and this line itself it returns two points at the distance `6.4e15` from
the origin, although the line does not meet the surface of the cylinder. -/
theorem C111_parallel_line_defect :
    ∃ C L, @Cylinder.new ℝ b64 (arr (vec3 0 0 0)) (arr (vec3 1 1 0)) 1 = .ok C ∧ @Line.new ℝ b64 (arr (vec3 0 0 0)) (arr (vec3 1 1 0)) = .ok L ∧
      @Cylinder.intersectLine ℝ b64 C L none true =
        .ok (arr (vec3 (-4503599627370495) (-4503599627370495) 0), arr (vec3 4503599627370495 4503599627370495 0)) ∧
      infCyl (vec3 0 0 0) (vec3 1 1 0) 1 ∩ lineSet (vec3 0 0 0) (vec3 1 1 0) = ∅ := by
  refine ⟨⟨[0, 0, 0], [1, 1, 0], 1⟩, ⟨[0, 0, 0], [1, 1, 0]⟩, ?_, ?_, ?_, ?_⟩
  · simp only [arr_vec3, Cylinder.new, new1D_3, ok_bind, leftToRight_fl, Vec.isZero, dot_3, isclose_zero_53, par_0, par_1, par_2, par_3, par_4]
    norm_num [lt_rd, zero_rd]
  · simp only [arr_vec3, Line.new, newLinePlane, new1D_3, ok_bind, leftToRight_fl, Vec.isZero, dot_3, isclose_zero_53, par_0, par_1, par_2, par_3, par_4]
    norm_num
  · have hu : @Vec.unit ℝ b64 [1, 1, 0] = .ok [1592262918131443 / 2251799813685248, 1592262918131443 / 2251799813685248, 0] := by
      simp only [Vec.unit, norm_3, eq_rd, zero_rd, leftToRight_fl, par_0, par_1, par_2, par_3, par_4, par_5]
      rw [if_neg (by norm_num)]
      simp only [sdiv_3, leftToRight_fl, par_6, par_7]
    have h4 : ((4 : ℤ) : ℝ) = 4 := by norm_num
    have ha : ¬ (4503599627370497 / 182687704666362864775460604089535377456991567872 : ℝ) = 0 := by norm_num
    have hb : ¬ (4503599627370497 / 45671926166590716193865151022383844364247891968 : ℝ) < 0 := by norm_num
    simp only [arr_vec3, Cylinder.intersectLine, Line.dimension, List.length_cons, List.length_nil, ne_eq, Cylinder.intersectInfinite, wrapped_rd, hu,
      fromPoints_3, dot_3, smul_3, vadd_3, vsub_3, norm_3, new1D_3, ok_bind, pure_ok, leftToRight_fl, sq_rd, two_rd, mul_rd, sub_rd, solveQuadratic,
      id, eq_rd, zero_rd, ofInt_rd, h4, lt_rd, mathSqrt, sqrt_rd, neg_rd, add_rd, div_rd, Int.cast_neg, Int.cast_one, neg_zero, ha, hb, decide_false,
      Bool.false_eq_true, if_false, if_true, not_true_eq_false, Nat.reduceAdd,
      par_0, par_1, par_2, par_3, par_4, par_5, par_6, par_7, par_8, par_9, par_10, par_11, par_12, par_13, par_14, par_15,
      par_16, par_17, par_18, par_19, par_20, par_21, par_22, par_23, par_24, par_25, par_26, par_27, par_28, par_29, par_30,
      par_31, par_32, par_33, par_34, par_35, par_36, par_37, par_38, par_39, par_40, par_41, par_42, par_43, par_44]
  · have hne : vec3 1 1 0 ≠ 0 := fun h => by
      have := congrFun (congrArg WithLp.ofLp h) 0; simp [vec3] at this
    rw [Set.eq_empty_iff_forall_notMem]
    rintro x ⟨h1, h2⟩
    rw [infCyl_iff hne one_pos, Metric.infDist_zero_of_mem h2] at h1
    exact zero_ne_one h1

theorem rint_small {x : ℝ} (h : |x| < 1 / 2) : rintReal x = 0 := by
  have := rintReal_near 0 (y := x) (by simpa using h)
  simpa using this

/-- Rounding a small number to `k` decimals gives zero. -/
theorem round_small (h : StdRounding u fl) (hu : u ≤ 1 / 10 ^ 5) {k : ℤ} (hk : k ≠ 0) {x : ℝ} (hx : |x| * (10 : ℝ) ^ k < 499 / 1000) :
    @roundDigits ℝ (rounded fl) k x = 0 := by
  have hz : fl 0 = 0 := by
    have := h.err 0
    rwa [abs_zero, mul_zero, sub_zero, abs_nonpos_iff] at this
  have hfl : ∀ y : ℝ, |y| < 499 / 1000 → rintReal (fl y) = 0 := by
    intro y hy
    apply rint_small
    have := abs_fl_le h y
    have : (1 + u) * |y| ≤ (1 + 1 / 10 ^ 5) * |y| := mul_le_mul_of_nonneg_right (by linarith) (abs_nonneg y)
    norm_num at this
    linarith
  rcases lt_or_gt_of_ne hk with hk0 | hk0
  · have h0 : ¬ 0 ≤ k := by omega
    have e : ((10 ^ (-k).toNat : ℤ) : ℝ) = ((10 : ℝ) ^ k)⁻¹ := by
      rw [← zpow_neg]
      conv_rhs => rw [← Int.toNat_of_nonneg (by omega : 0 ≤ -k)]
      push_cast; rw [zpow_natCast]
    show (if 0 ≤ k then _ else fl (rintReal (fl (x / ((10 ^ (-k).toNat : ℤ) : ℝ))) * ((10 ^ (-k).toNat : ℤ) : ℝ))) = 0
    rw [if_neg h0, e, div_inv_eq_mul, hfl, zero_mul, hz]
    rw [abs_mul, abs_of_pos (by positivity : (0 : ℝ) < 10 ^ k)]; exact hx
  · have h0 : 0 ≤ k := by omega
    have e : ((10 ^ k.toNat : ℤ) : ℝ) = (10 : ℝ) ^ k := by
      conv_rhs => rw [← Int.toNat_of_nonneg h0]
      push_cast; rw [zpow_natCast]
    show (if 0 ≤ k then fl (rintReal (fl (x * ((10 ^ k.toNat : ℤ) : ℝ))) / ((10 ^ k.toNat : ℤ) : ℝ)) else _) = 0
    rw [if_pos h0, e, hfl, zero_div, hz]
    rw [abs_mul, abs_of_pos (by positivity : (0 : ℝ) < 10 ^ k)]; exact hx

/-- C111: `cylinder.intersect_line(line, n_digits=k)` with `k ≠ 0` under rounding raises for every line whose angle with the axis has a sine
`s` with `(s + 50 u)² 10ᵏ ≤ 0.49`; so for all lines if `k` is negative, and for all lines parallel to the axis if `k ≤ 28` in binary64. -/
theorem C111_digits (h : StdRounding u fl) (hu : u ≤ 1 / 10 ^ 5) {p a q d : E 3} {r : ℝ} {C : Cylinder ℝ} {L : Line ℝ}
    (hC : @Cylinder.new ℝ (rounded fl) (arr p) (arr a) r = .ok C) (hL : @Line.new ℝ (rounded fl) (arr q) (arr d) = .ok L)
    {k : ℤ} (hk : k ≠ 0) :
    ((√(1 - cosE a d ^ 2) + 50 * u) ^ 2 * (10 : ℝ) ^ k ≤ 49 / 100 →
      @Cylinder.intersectLine ℝ (rounded fl) C L (some k) true = .error (.valueError "The line does not intersect the cylinder.")) ∧
    (k < 0 → @Cylinder.intersectLine ℝ (rounded fl) C L (some k) true =
      .error (.valueError "The line does not intersect the cylinder.")) ∧
    (¬ LinearIndependent ℝ ![a, d] → k ≤ 28 → u ≤ 2⁻¹ ^ 53 → @Cylinder.intersectLine ℝ (rounded fl) C L (some k) true =
      .error (.valueError "The line does not intersect the cylinder.")) := by
  have hu0 := h.nonneg
  have hu1 : u ≤ 1 / 100000 := by norm_num at hu ⊢; exact hu
  obtain ⟨ha, hr, rfl⟩ := cylinder_new_rd h (by linarith) hC
  obtain ⟨hd, rfl⟩ := line_new_rd h (by linarith) hL
  have main : (√(1 - cosE a d ^ 2) + 50 * u) ^ 2 * (10 : ℝ) ^ k ≤ 49 / 100 → @Cylinder.intersectLine ℝ (rounded fl) ⟨arr p, arr a, r⟩ ⟨arr q, arr d⟩
      (some k) true = .error (.valueError "The line does not intersect the cylinder.") := by
    intro hs
    rw [sine_eq ha hd] at hs
    obtain ⟨z, yL, yP, N, M, g, cz, eL, eP, rN, rM, eg, hcomp⟩ := cyl_calc h hu (p := p) (q := q) ha hd r (some k)
    have x7 : Real.exp (7 * eps u) - 1 ≤ 2 * 7 * u := exp_eps_le2 h (by norm_num) (by linarith)
    have h1 : RP (eps u) 7 (fl (N * N)) (‖yL‖ ^ 2) := by
      have := h.step (rN.mul rN)
      rw [show (3 + 3 + 1 : ℝ) = 7 by norm_num] at this
      simpa [pow_two] using this
    have h2 := h1.abs_sub_le
    rw [abs_of_nonneg (sq_nonneg ‖yL‖)] at h2
    have hy : ‖yL‖ ≤ ‖perpE (‖a‖⁻¹ • a) (‖d‖⁻¹ • d)‖ + 50 * u := by
      have := norm_add_le (yL - perpE (‖a‖⁻¹ • a) (‖d‖⁻¹ • d)) (perpE (‖a‖⁻¹ • a) (‖d‖⁻¹ • d))
      rw [sub_add_cancel] at this; linarith
    have hy2 := pow_le_pow_left₀ (norm_nonneg _) hy 2
    have h10 : (0 : ℝ) < 10 ^ k := by positivity
    have h3 : |fl (N * N)| ≤ 1001 / 1000 * ‖yL‖ ^ 2 := by
      have := abs_add_le (fl (N * N) - ‖yL‖ ^ 2) (‖yL‖ ^ 2)
      rw [sub_add_cancel, abs_of_nonneg (sq_nonneg ‖yL‖)] at this
      have h4 : (Real.exp (7 * eps u) - 1) * ‖yL‖ ^ 2 ≤ 1 / 1000 * ‖yL‖ ^ 2 := mul_le_mul_of_nonneg_right (by linarith) (sq_nonneg _)
      linarith
    have h5 : |fl (N * N)| * (10 : ℝ) ^ k < 499 / 1000 := by
      have e1 := mul_le_mul_of_nonneg_right (h3.trans (mul_le_mul_of_nonneg_left hy2 (by norm_num))) h10.le
      rw [mul_assoc] at e1
      linarith
    have h6 := round_small h hu hk h5
    rw [hcomp]
    simp only [solveQuadratic, hk, if_false, h6, eq_rd, zero_rd, decide_true, if_true]
    rfl
  refine ⟨main, fun hk0 => main ?_, fun hdep hk28 hu53 => main ?_⟩
  · have h1 : √(1 - cosE a d ^ 2) ≤ 1 := by rw [Real.sqrt_le_one]; linarith [sq_nonneg (cosE a d)]
    have h2 : (10 : ℝ) ^ k ≤ 1 / 10 := by
      have := zpow_le_zpow_right₀ (by norm_num : (1 : ℝ) ≤ 10) (by omega : k ≤ -1)
      rwa [zpow_neg_one, ← one_div] at this
    have h3 : (√(1 - cosE a d ^ 2) + 50 * u) ^ 2 ≤ (101 / 100) ^ 2 :=
      pow_le_pow_left₀ (by positivity) (by linarith) 2
    have := mul_le_mul h3 h2 (by positivity) (by norm_num)
    norm_num at this
    linarith
  · have h1 : √(1 - cosE a d ^ 2) = 0 := by
      rw [LinearIndependent.pair_iff' ha, not_forall] at hdep
      obtain ⟨t, ht⟩ := hdep
      rw [not_not] at ht
      have h0 : ‖a‖ ≠ 0 := norm_ne_zero_iff.mpr ha
      have ht0 : t ≠ 0 := fun h => hd (by rw [← ht, h, zero_smul])
      have : cosE a d ^ 2 = 1 := by
        rw [cosE, ← ht, real_inner_smul_right, real_inner_self_eq_norm_sq, norm_smul, Real.norm_eq_abs, div_pow, mul_pow, mul_pow, mul_pow,
          sq_abs]
        field_simp
      rw [this, sub_self, Real.sqrt_zero]
    have h2 : (10 : ℝ) ^ k ≤ 10 ^ (28 : ℤ) := zpow_le_zpow_right₀ (by norm_num) hk28
    rw [h1, zero_add]
    have h3 : (50 * u) ^ 2 ≤ (50 * 2⁻¹ ^ 53) ^ 2 := pow_le_pow_left₀ (by positivity) (by linarith) 2
    have := mul_le_mul h3 h2 (by positivity) (by positivity)
    refine this.trans (by norm_num)

/-- A line parallel to the axis, three decimals, binary64; and a line at the angle with the sine `1/100` to it. -/
example : ¬ LinearIndependent ℝ ![vec3 0 0 1, vec3 0 0 2] ∧ ((1 / 100 : ℝ) + 50 * 2⁻¹ ^ 53) ^ 2 * (10 : ℝ) ^ (3 : ℤ) ≤ 49 / 100 := by
  refine ⟨fun h => ?_, by norm_num⟩
  have h0 : vec3 0 0 1 ≠ 0 := fun h => by
    have := congrFun (congrArg WithLp.ofLp h) 2; simp [vec3] at this
  rw [LinearIndependent.pair_iff' h0] at h
  exact h 2 (by ext i; fin_cases i <;> simp [vec3])

end SkSpatial
