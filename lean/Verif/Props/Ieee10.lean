import Verif.Props.Ieee9
import Verif.Props.Rounding14
/-! # C122, continued: signed angles, intersection of lines, planes from vectors -/

namespace SkSpatial
open XReal StdRounding

variable {n : ℕ}

local notation "rn" => rounded (leftToRight (roundNearest 53))

/-- `math.atan2` on a wide range. -/
theorem atan2_ie {y x : ℝ} (hy : Rng 500 500 y) (hx : Rng 500 500 x) :
    @PyNum.atan2 XReal ieee (fin y) (fin x) = fin (@PyNum.atan2 ℝ rn y x) := by
  show binary64 (fin (Complex.arg ⟨x, y⟩)) = fin (roundNearest 53 (Complex.arg ⟨x, y⟩))
  have hb : |Complex.arg ⟨x, y⟩| ≤ (2 : ℝ) ^ (1023 : ℤ) := by
    refine (Complex.abs_arg_le_pi _).trans (Real.pi_le_four.trans ?_)
    calc (4 : ℝ) = (2 : ℝ) ^ (2 : ℤ) := by norm_num
      _ ≤ _ := zpow_le_zpow_right₀ (by norm_num) (by norm_num)
  refine binary64_fin ?_ hb
  by_cases h0 : y = 0
  · have hz : (⟨x, y⟩ : ℂ) = (x : ℂ) := by rw [h0]; rfl
    rw [hz]
    rcases le_or_gt 0 x with h | h
    · left; rw [Complex.arg_ofReal_of_nonneg h]; exact Mul2.zero _
    · right
      rw [Complex.arg_ofReal_of_neg h, abs_of_pos Real.pi_pos]
      calc (2 : ℝ) ^ (-1022 : ℤ) ≤ (2 : ℝ) ^ (1 : ℤ) := zpow_le_zpow_right₀ (by norm_num) (by norm_num)
        _ = 2 := by norm_num
        _ ≤ _ := Real.two_le_pi
  · right
    have h1 := hy.1.le_abs h0
    have hz : 0 < ‖(⟨x, y⟩ : ℂ)‖ := by
      rw [norm_pos_iff]; intro h; exact h0 (congrArg Complex.im h)
    have h2 : ‖(⟨x, y⟩ : ℂ)‖ ≤ (2 : ℝ) ^ (501 : ℤ) := by
      refine (Complex.norm_le_abs_re_add_abs_im _).trans ?_
      rw [show (501 : ℤ) = 500 + 1 by norm_num, zpow_add₀ (by norm_num), zpow_one, mul_two]
      exact add_le_add hx.2 hy.2
    have h3 : |Real.sin (Complex.arg ⟨x, y⟩)| ≤ |Complex.arg ⟨x, y⟩| := Real.abs_sin_le_abs
    rw [Complex.sin_arg, abs_div, abs_of_pos hz] at h3
    refine le_trans ?_ h3
    rw [le_div_iff₀ hz]
    calc (2 : ℝ) ^ (-1022 : ℤ) * ‖(⟨x, y⟩ : ℂ)‖ ≤ (2 : ℝ) ^ (-1022 : ℤ) * (2 : ℝ) ^ (501 : ℤ) :=
          mul_le_mul_of_nonneg_left h2 (by positivity)
      _ = (2 : ℝ) ^ (-521 : ℤ) := by rw [← zpow_add₀ (by norm_num)]; norm_num
      _ ≤ (2 : ℝ) ^ (-500 : ℤ) := zpow_le_zpow_right₀ (by norm_num) (by norm_num)
      _ ≤ _ := h1

theorem xarr2 (x : E 2) : xarr x = [fin (x 0), fin (x 1)] := by simp [xarr, arr2]

/-- Cosines where the first vector is a cross product. -/
theorem cosineW_ie [NeZero n] (hn : n ≤ 2 ^ 53) {x y : E n} (hx : RV 204 103 x) (hy : RV 102 51 y) (hx0 : x ≠ 0) (hy0 : y ≠ 0) :
    ∃ c, @Vec.cosineSimilarity ℝ rn (arr x) (arr y) = .ok c ∧ @Vec.cosineSimilarity XReal ieee (xarr x) (xarr y) = .ok (fin c) ∧ Rng 568 0 c := by
  classical
  obtain ⟨a1, a2⟩ := ieee_norm hn hx (by norm_num) (by norm_num)
  obtain ⟨b1, b2⟩ := ieee_norm hn hy (by norm_num) (by norm_num)
  obtain ⟨p1, p2⟩ := ieee_mul a2 b2 (by norm_num) (by norm_num)
  obtain ⟨-, d1, d2⟩ := ieee_dot hn hx hy (by norm_num) (by norm_num)
  have hp : @PyNum.mul ℝ rn (@normv ℝ rn (arr x)) (@normv ℝ rn (arr y)) ≠ 0 := by
    rw [mul_rd]
    intro h0
    have := (std53.rp _).eq_zero.mp h0
    exact (mul_ne_zero (norm_pos_rn hx0) (norm_pos_rn hy0)) this
  obtain ⟨q1, q2⟩ := ieee_div d2 p2 hp (by norm_num) (by norm_num)
  obtain ⟨q, hq⟩ : ∃ q, q = @PyNum.div ℝ rn (@dotv ℝ rn (arr x) (arr y)) (@PyNum.mul ℝ rn (@normv ℝ rn (arr x)) (@normv ℝ rn (arr y))) :=
    ⟨_, rfl⟩
  refine ⟨@clip ℝ rn q (@PyNum.ofInt ℝ rn (-1)) (@one ℝ rn), ?_, ?_, ?_⟩
  · simp only [Vec.cosineSimilarity, new1D_rd, ok_bind, Vec.norm, eq_rd, zero_rd, hp, decide_false, Bool.false_eq_true, if_false,
      dot_rd, pure_ok, hq]
  · simp only [Vec.cosineSimilarity, ieee_new1D, ok_bind, Vec.norm, a1, b1, p1, ieee_zero, ieee_eq, eq_rd, zero_rd, hp, decide_false,
      Bool.false_eq_true, if_false, d1, q1, clip_ie, pure_ok, hq]
  · rw [clip_rn]
    rw [← hq] at q2
    refine ⟨?_, ?_⟩
    · rcases max_choice (-1 : ℝ) (min q 1) with h | h
      · rw [h]; exact (Rng.one.neg.mono (by norm_num) le_rfl : Rng 568 0 (-1)).1
      · rw [h]
        rcases min_choice q 1 with h | h
        · rw [h]; exact q2.1.mono (by norm_num)
        · rw [h]; exact (Rng.one.mono (by norm_num) le_rfl : Rng 568 0 1).1
    · rw [zpow_zero, abs_le]
      exact ⟨le_max_left _ _, max_le (by norm_num) (min_le_right _ _)⟩

theorem isZero_wide_rn {v : E n} : @Vec.isZero ℝ rn (@Tol.default ℝ rn) (arr v) = .ok (@decide (v = 0) (Classical.propDecidable _)) := by
  classical
  rw [C73_is_zero (n := n) std53 (by norm_num)]
  simp only [Except.ok.injEq, decide_eq_decide]

/-- The parallelism test between a cross product and a moderate vector, with the default tolerances. -/
theorem isParallelW_ie [NeZero n] (hn : n ≤ 2 ^ 53) {x y : E n} (hx : RV 204 103 x) (hy : RV 102 51 y) :
    @Vec.isParallel XReal ieee (@Tol.default XReal ieee) (xarr x) (xarr y) = @Vec.isParallel ℝ rn (@Tol.default ℝ rn) (arr x) (arr y) := by
  classical
  have z1 := isZero_wide_ie hn (hx.mono (by norm_num) (by norm_num : (103 : ℤ) ≤ 470))
  have z2 := isZero_wide_ie hn (hy.mono (by norm_num) (by norm_num : (51 : ℤ) ≤ 470))
  obtain ⟨r, r1, r2, r3⟩ := ieee_tol
  simp only [Vec.isParallel, z1, z2, isZero_wide_rn, ieee_new1D, new1D_rd, ok_bind]
  by_cases hx0 : x = 0
  · simp only [hx0, decide_true, if_true, pure_ok, ok_bind]
  by_cases hy0 : y = 0
  · simp only [hx0, hy0, decide_false, decide_true, Bool.false_eq_true, if_false, if_true, pure_ok, ok_bind]
  obtain ⟨c, e1, e2, e3⟩ := cosineW_ie hn hx hy hx0 hy0
  simp only [hx0, hy0, decide_false, Bool.false_eq_true, if_false, ok_bind, e1, e2, ieee_abs, abs_rd, ieee_one, one_rd, r1, r2]
  exact ieee_isclose r3 e3.abs (Rng.one.mono (by norm_num) (by norm_num)) (by norm_num) (by norm_num) (by norm_num) (by norm_num)

/-- C122: `angle_signed` in 2D and `angle_signed_3d`. -/
theorem C122_angle_signed {v w : E 2} (hv : ModerateV v) (hw : ModerateV w) {a b d : E 3} (ha : ModerateV a) (hb : ModerateV b) (hd : ModerateV d) :
    @Vec.angleSigned XReal ieee (xarr v) (xarr w) = asFloat (@Vec.angleSigned ℝ rn (arr v) (arr w)) ∧
    @Vec.angleSigned3d XReal ieee (xarr a) (xarr b) (xarr d) = asFloat (@Vec.angleSigned3d ℝ rn (arr a) (arr b) (arr d)) := by
  constructor
  · obtain ⟨-, d1, d2⟩ := ieee_dot (by norm_num) hv.rv hw.rv (by norm_num) (by norm_num)
    obtain ⟨a1, a2⟩ := ieee_mul (hv.rv 0) (hw.rv 1) (by norm_num) (by norm_num)
    obtain ⟨b1, b2⟩ := ieee_mul (hv.rv 1) (hw.rv 0) (by norm_num) (by norm_num)
    obtain ⟨c1, c2⟩ := ieee_sub a2 b2 (by norm_num) (by norm_num)
    have hA := atan2_ie (c2.mono (by norm_num) (by norm_num)) (d2.mono (by norm_num) (by norm_num))
    simp only [Vec.angleSigned, length_xarr, length_arr, if_true, ieee_new1D, new1D_rd, ok_bind, pure_ok, decide_true, Bool.not_true,
      Bool.false_eq_true, if_false, d1, dot_rd]
    rw [xarr2, xarr2, arr2, arr2] at *
    simp only [det2, ieee_toFloat, toFloat_rd, a1, b1, c1, hA, asFloat_ok]
  · obtain ⟨c, c1, c2, c3⟩ := cross_ie le_rfl ha.rv hb.rv (by norm_num) (by norm_num)
    have hpar := isParallelW_ie (n := 3) (by norm_num) (c3.mono (by norm_num) (by norm_num)) (hd.rv.mono le_rfl (by norm_num))
    obtain ⟨-, d1, d2⟩ := ieee_dot (by norm_num) ha.rv hb.rv (by norm_num) (by norm_num)
    simp only [Vec.angleSigned3d, length_xarr, length_arr, ieee_new1D, new1D_rd, ok_bind, decide_true, Bool.and_self, Bool.not_true,
      Bool.false_eq_true, if_false, c1, c2, hpar]
    cases @Vec.isParallel ℝ rn (@Tol.default ℝ rn) (arr c) (arr d) with
    | error e => rfl
    | ok b =>
      cases b
      · rfl
      · simp only [ok_bind, Bool.not_true, Bool.false_eq_true, if_false]
        by_cases h0 : d = 0
        · rw [(unit_zero_ie (by norm_num) hd.rv h0).1, (unit_zero_ie (by norm_num) hd.rv h0).2]; rfl
        · obtain ⟨u, u1, u2, u3⟩ := unit_ie50 (by norm_num) hd h0
          obtain ⟨-, e1, e2⟩ := ieee_dot (by norm_num) c3 u3 (by norm_num) (by norm_num)
          simp only [u1, u2, ok_bind, e1, d1, dot_rd, pure_ok, asFloat_ok]
          rw [atan2_ie (e2.mono (by norm_num) (by norm_num)) (d2.mono (by norm_num) (by norm_num))]

private theorem cross_contra {N V W c : ℝ} (h : N ^ 2 = (V * W) ^ 2 - c ^ 2 * (V * W) ^ 2) (hc : |c| < 1 - 5 / 10000000000) (hN0 : 0 ≤ N)
    (hN : N ≤ 1 / 1000000 * (V * W)) (hp : 0 < V * W) : False := by
  have h1 : c ^ 2 ≤ 1 - 5 / 10000000000 := by
    rw [← sq_abs]; nlinarith [abs_nonneg c]
  nlinarith [sq_nonneg N, mul_pos hp hp]

/-- With the default tolerances, directions that are not found parallel have a computed cross product that is not zero. -/
theorem cross_ne_zero_rn [NeZero n] (hn : n ≤ 3) {v w : E n} {c : E 3} (h : @Vec.cross ℝ rn (arr v) (arr w) = .ok (arr c))
    (hp : @Vec.isParallel ℝ rn (@Tol.default ℝ rn) (arr v) (arr w) = .ok false) : c ≠ 0 := by
  rintro rfl
  have hu : (2 * (n : ℝ) + 6) * 2 ^ (-(53 : ℕ) : ℤ) ≤ 4 / 10000000000 := by
    have : (n : ℝ) ≤ 3 := by exact_mod_cast hn
    have h2 : (2 : ℝ) ^ (-(53 : ℕ) : ℤ) ≤ 1 / 10 ^ 12 := by norm_num
    nlinarith
  obtain ⟨b, hb, hb1, -⟩ := C77_is_parallel std53 hu v w
  rw [hp] at hb
  have hb : b = false := (Except.ok.inj hb).symm
  subst hb
  have hnot : ¬ (v = 0 ∨ w = 0 ∨ 1 - 5 / 10000000000 ≤ |cosE v w|) := fun h => absurd (hb1 h) (by simp)
  rw [not_or, not_or, not_le] at hnot
  obtain ⟨hv, hw, hc⟩ := hnot
  obtain ⟨c', e1, e2⟩ := cross_rd hn std53 le_rfl (CRP.refl (eps (2 ^ (-(53 : ℕ) : ℤ))) v) (CRP.refl (eps (2 ^ (-(53 : ℕ) : ℤ))) w)
  have hcc : c' = 0 := arr_injective (Except.ok.inj (e1.symm.trans h))
  rw [hcc, zero_sub, norm_neg] at e2
  have x : Real.exp ((2 * 0 + 2) * eps (2 ^ (-(53 : ℕ) : ℤ))) - 1 ≤ 2 * 2 * 2 ^ (-(53 : ℕ) : ℤ) := by
    rw [show (2 * 0 + 2 : ℝ) = 2 by norm_num]; exact exp_eps_le2 std53 (by norm_num) (by norm_num)
  have hv0 := norm_pos_iff.mpr hv
  have hw0 := norm_pos_iff.mpr hw
  have hN : ‖crossE (pad3 v) (pad3 w)‖ ≤ 1 / 1000000 * (‖v‖ * ‖w‖) := by
    refine e2.trans (mul_le_mul_of_nonneg_right ?_ (by positivity))
    have := mul_le_mul sqrt_two_le x (by linarith [one_le_exp_eps std53 (k := 2 * 0 + 2) (by norm_num)]) (by norm_num)
    exact this.trans (by norm_num)
  refine cross_contra (c := cosE v w) ?_ hc (norm_nonneg _) hN (by positivity)
  rw [crossE_norm_sq, norm_pad3 hn, norm_pad3 hn, inner_pad3 hn, cosE]
  field_simp

/-- C122: `line.intersect_line(other, check_coplanar=False)` with the default tolerances. -/
theorem C122_intersect_line [NeZero n] (hn : n ≤ 3) [e1 : NumpyExt XReal] [e2 : NumpyExt ℝ] {p v q w : E n} (hp : ModerateV p) (hv : ModerateV v)
    (hq : ModerateV q) (hw : ModerateV w) :
    @Line.intersectLine XReal ieee e1 ⟨xarr p, xarr v⟩ ⟨xarr q, xarr w⟩ false (@Tol.default XReal ieee) =
      asFloats (@Line.intersectLine ℝ rn e2 ⟨arr p, arr v⟩ ⟨arr q, arr w⟩ false (@Tol.default ℝ rn)) := by
  have hn' : n ≤ 2 ^ 53 := hn.trans (by norm_num)
  have hn3 : ¬ (3 < n) := by omega
  have hpar : @Vec.isParallel XReal ieee (@Tol.default XReal ieee) (xarr v) (xarr w) =
      @Vec.isParallel ℝ rn (@Tol.default ℝ rn) (arr v) (arr w) :=
    isParallelW_ie hn' (hv.rv.mono (by norm_num) (by norm_num)) (hw.rv.mono le_rfl (by norm_num))
  obtain ⟨x, x1, x2, x3⟩ := fromPoints_ie hp hq
  obtain ⟨c, c1, c2, c3⟩ := cross_ie hn hv.rv hw.rv (by norm_num) (by norm_num)
  obtain ⟨d, d1, d2, d3⟩ := cross_ie hn x3 (hw.rv.mono le_rfl (by norm_num)) (by norm_num) (by norm_num)
  obtain ⟨-, g1, g2⟩ := ieee_dot (by norm_num) d3 c3 (by norm_num) (by norm_num)
  obtain ⟨k1, k2⟩ := ieee_norm (by norm_num) c3 (by norm_num) (by norm_num)
  obtain ⟨s1, s2⟩ := ieee_mul k2 k2 (by norm_num) (by norm_num)
  simp only [Line.intersectLine, Line.dimension, length_xarr, length_arr, hpar, ne_eq, not_true_eq_false, if_false, gt_iff_lt, hn3, or_self,
    Bool.false_eq_true, pure_ok, ok_bind, x1, x2, c1, c2, d1, d2, g1, dot_rd, Vec.norm, k1, sq, s1]
  cases hb : @Vec.isParallel ℝ rn (@Tol.default ℝ rn) (arr v) (arr w) with
  | error e => rfl
  | ok b =>
    cases b
    · have hc0 := cross_ne_zero_rn hn c1 hb
      have hs0 : @PyNum.mul ℝ rn (@normv ℝ rn (arr c)) (@normv ℝ rn (arr c)) ≠ 0 := by
        rw [mul_rd]
        intro h0
        exact (mul_ne_zero (norm_pos_rn hc0) (norm_pos_rn hc0)) ((std53.rp _).eq_zero.mp h0)
      obtain ⟨t1, t2⟩ := ieee_div g2 s2 hs0 (by norm_num) (by norm_num)
      obtain ⟨y, y1, y2, y3⟩ := ieee_smul t2 hv.rv (by norm_num) (by norm_num)
      obtain ⟨z, z1, z2, -⟩ := ieee_vadd (hp.rv.mono (by norm_num) (by norm_num)) y3 (by norm_num) (by norm_num)
      simp only [ok_bind, Bool.false_eq_true, if_false, t1, y1, y2, z1, z2, asFloats_ok]
    · rfl

@[simp] theorem asPlane_ok (p v : E n) : asPlane (.ok ⟨arr p, arr v⟩) = .ok ⟨xarr p, xarr v⟩ := rfl
@[simp] theorem asPlane_error (e : Err) : asPlane (.error e) = .error e := rfl

/-- C122: `Plane.from_vectors(point, a, b)` and `plane.cartesian()`. -/
theorem C122_plane_from_vectors [NeZero n] (hn : n ≤ 3) {p a b : E n} (hp : ModerateV p) (ha : ModerateV a) (hb : ModerateV b) :
    (∀ r s : ℝ, Moderate r → @Plane.fromVectors XReal ieee ⟨fin r, fin s⟩ (xarr p) (xarr a) (xarr b) =
      asPlane (@Plane.fromVectors ℝ rn ⟨r, s⟩ (arr p) (arr a) (arr b))) ∧
    @Plane.cartesian XReal ieee ⟨xarr p, xarr a⟩ =
      (@Plane.cartesian ℝ rn ⟨arr p, arr a⟩).map fun t => (fin t.1, fin t.2.1, fin t.2.2.1, fin t.2.2.2) := by
  have hn' : n ≤ 2 ^ 53 := hn.trans (by norm_num)
  have hn3 : ¬ (3 < n) := by omega
  constructor
  · intro r s hr
    obtain ⟨c, c1, c2, c3⟩ := cross_ie hn ha.rv hb.rv (by norm_num) (by norm_num)
    obtain ⟨w1, w2⟩ := line_new_wide (by norm_num) (pad3 p) (c3.mono (by norm_num) (by norm_num : (50 + 50 + 1 : ℤ) ≤ 470))
    simp only [Plane.fromVectors, ieee_new1D, new1D_rd, ok_bind, (C96_angles hn' ha hb).2.2 r s hr, c1, c2, setDimension3_rd hn, setDimension3_ie hn]
    cases @Vec.isParallel ℝ rn ⟨r, s⟩ (arr a) (arr b) with
    | error e => rfl
    | ok b =>
      cases b
      · simp only [ok_bind, Bool.false_eq_true, if_false]
        by_cases h0 : c = 0
        · rw [(w2 h0).2.2.1, (w2 h0).2.2.2, asPlane_error]
        · rw [(w1 h0).2.2.1, (w1 h0).2.2.2, asPlane_ok]
      · rfl
  · obtain ⟨-, d1, -⟩ := ieee_dot hn' ha.rv hp.rv (by norm_num) (by norm_num)
    simp only [Plane.cartesian, Plane.dimension, length_xarr, length_arr, gt_iff_lt, hn3, if_false, setDimension3_rd hn, setDimension3_ie hn,
      ok_bind, d1, dot_rd, xarr3, arr3, pure_ok, ieee_neg, neg_rd]
    rfl

end SkSpatial
