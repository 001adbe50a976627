import Verif.Props.IeeeErrors3
import Verif.Props.Rounding32
/-!
# C127: intersections of line segments in IEEE binary64

`segment.intersect_line_segment(other)` tests whether the computed point of intersection is on both segments, by the cosine of the angle under
which it sees the end points.  For everyday numbers (`2⁻²⁰ … 2²⁰`) this cosine may still underflow, but only if it is so close to
zero that the test fails in any case.
-/

namespace SkSpatial
open XReal StdRounding

local notation "rn" => rounded (leftToRight (roundNearest 53))
local notation "u53" => ((2 : ℝ) ^ (-((53 : ℕ) : ℤ)))

variable {n : ℕ}

/-- Quotients of numbers that are not too small. -/
theorem ieee_div_low {L M L' M' : ℤ} {x y : ℝ} (hx : Low L x) (hM : |x| ≤ (2 : ℝ) ^ M) (hy : Low L' y) (hM' : |y| ≤ (2 : ℝ) ^ M') (hy0 : y ≠ 0)
    (h1 : L + M' ≤ 1022) (h2 : M + L' ≤ 1023) :
    @PyNum.div XReal ieee (fin x) (fin y) = fin (@PyNum.div ℝ rn x y) ∧
      Rng (L + M' + 52) (M + L') (@PyNum.div ℝ rn x y) ∧ Low (L + M') (@PyNum.div ℝ rn x y) := by
  have hy1 : 0 < |y| := abs_pos.mpr hy0
  have hl := hy.resolve_left hy0
  have hub : |x / y| ≤ (2 : ℝ) ^ (M + L') := by
    rw [abs_div, div_le_iff₀ hy1, zpow_add₀ (by norm_num)]
    calc |x| ≤ (2 : ℝ) ^ M := hM
      _ = (2 : ℝ) ^ M * (2 : ℝ) ^ L' * (2 : ℝ) ^ (-L') := by
          rw [mul_assoc, ← zpow_add₀ (by norm_num : (2 : ℝ) ≠ 0)]; simp
      _ ≤ _ := by gcongr
  have hlb : Low (L + M') (x / y) := by
    rcases hx with rfl | hx
    · left; simp
    · right
      rw [abs_div, le_div_iff₀ hy1, neg_add, zpow_add₀ (by norm_num)]
      calc (2 : ℝ) ^ (-L) * (2 : ℝ) ^ (-M') * |y| ≤ (2 : ℝ) ^ (-L) * (2 : ℝ) ^ (-M') * (2 : ℝ) ^ M' := by gcongr
        _ = (2 : ℝ) ^ (-L) := by rw [mul_assoc, ← zpow_add₀ (by norm_num : (2 : ℝ) ≠ 0)]; simp
        _ ≤ _ := hx
  refine ⟨?_, ⟨rn_mul2_of_le hlb, rn_abs_le (rn_pow _) hub⟩, rn_low hlb⟩
  show binary64 (XReal.div (fin x) (fin y)) = _
  rw [show XReal.div (fin x) (fin y) = fin (x / y) by simp [XReal.div, hy0]]
  refine binary64_fin ?_ (hub.trans (zpow_le_zpow_right₀ (by norm_num) h2))
  rcases hlb with h0 | h0
  · left; rw [h0]; exact Mul2.zero _
  · right; exact (zpow_le_zpow_right₀ (by norm_num) (by omega)).trans h0

/-- `line.intersect_line` for lines through pairs of everyday points. -/
theorem intersectLine_seg_ie [NeZero n] (hn : n ≤ 3) (ext : NumpyExt XReal) {p v q w : E n} (hp : RV 72 20 p) (hv : RV 72 21 v)
    (hq : RV 72 20 q) (hw : RV 72 21 w) (check : Bool) :
    (∃ y : E n, @Line.intersectLine ℝ rn (viaFloats ext) ⟨arr p, arr v⟩ ⟨arr q, arr w⟩ check (@Tol.default ℝ rn) = .ok (arr y) ∧
      @Line.intersectLine XReal ieee ext ⟨xarr p, xarr v⟩ ⟨xarr q, xarr w⟩ check (@Tol.default XReal ieee) = .ok (xarr y) ∧ RV 502 451 y) ∨
    ∃ e, @Line.intersectLine ℝ rn (viaFloats ext) ⟨arr p, arr v⟩ ⟨arr q, arr w⟩ check (@Tol.default ℝ rn) = .error e ∧
      @Line.intersectLine XReal ieee ext ⟨xarr p, xarr v⟩ ⟨xarr q, xarr w⟩ check (@Tol.default XReal ieee) = .error e := by
  have hn' : n ≤ 2 ^ 53 := hn.trans (by norm_num)
  have hn3 : ¬ (3 < n) := by omega
  have hpar : @Vec.isParallel XReal ieee (@Tol.default XReal ieee) (xarr v) (xarr w) =
      @Vec.isParallel ℝ rn (@Tol.default ℝ rn) (arr v) (arr w) :=
    isParallelW_ie hn' (hv.mono (by norm_num) (by norm_num)) (hw.mono (by norm_num) (by norm_num))
  have tp : ∀ {p v : E n}, RV 72 20 p → RV 72 21 v → ∃ q : E n, @Line.toPoint ℝ rn ⟨arr p, arr v⟩ (@one ℝ rn) = .ok (arr q) ∧
      @Line.toPoint XReal ieee ⟨xarr p, xarr v⟩ (@one XReal ieee) = .ok (xarr q) ∧ RV 102 52 q := by
    intro p v hp hv
    obtain ⟨y, y1, y2, y3⟩ := ieee_smul Rng.one hv (by norm_num) (by norm_num)
    obtain ⟨z, z1, z2, z3⟩ := ieee_vadd (hp.mono le_rfl (by norm_num : (20 : ℤ) ≤ 21)) (y3.mono (by norm_num) (by norm_num)) (by norm_num) (by norm_num)
    refine ⟨z, ?_, ?_, z3.mono (by norm_num) (by norm_num)⟩
    · simp only [Line.toPoint, one_rd, y1, z1]
    · simp only [Line.toPoint, ieee_one, one_rd, y2, z2]
  have hcop : @Line.isCoplanar XReal ieee ext none ⟨xarr p, xarr v⟩ (.line ⟨xarr q, xarr w⟩) =
      @Line.isCoplanar ℝ rn (viaFloats ext) none ⟨arr p, arr v⟩ (.line ⟨arr q, arr w⟩) := by
    obtain ⟨a, a1, a2, a3⟩ := tp hp hv
    obtain ⟨b, b1, b2, b3⟩ := tp hq hw
    have hm : ∀ x ∈ [p, a, q, b], RV 102 52 x := by
      intro x hx
      simp only [List.mem_cons, List.not_mem_nil, or_false] at hx
      rcases hx with rfl | rfl | rfl | rfl
      · exact hp.mono (by norm_num) (by norm_num)
      · exact a3
      · exact hq.mono (by norm_num) (by norm_num)
      · exact b3
    have e1 : @newPoints ℝ rn [arr p, arr a, arr q, arr b] = .ok (rows [p, a, q, b]) := newPoints_rd (P := [p, a, q, b]) (by simp)
    have e2 : @newPoints XReal ieee [xarr p, xarr a, xarr q, xarr b] = .ok (xrows [p, a, q, b]) := newPoints_ie (P := [p, a, q, b]) (by simp)
    have e3 := affineRank_ie ext (P := [p, a, q, b]) (by simp) (by simp) hm none
    rw [Option.map_none] at e3
    simp only [Line.isCoplanar, a1, a2, b1, b2, ok_bind, e1, e2, Pts.areCoplanar, e3]
  obtain ⟨x, x1, x2, x3⟩ := ieee_fromPoints hp hq (by norm_num) (by norm_num)
  obtain ⟨c, c1, c2, c3⟩ := cross_ie hn hv hw (by norm_num) (by norm_num)
  obtain ⟨d, d1, d2, d3⟩ := cross_ie hn x3 hw (by norm_num) (by norm_num)
  obtain ⟨-, g1, g2⟩ := ieee_dot (by norm_num) d3 c3 (by norm_num) (by norm_num)
  obtain ⟨k1, k2, k3⟩ := ieee_norm_low c3 c3.lv (by norm_num) (by norm_num) (by norm_num)
  obtain ⟨s1, s2, s3⟩ := ieee_mul_low k2 k2 k3 k3 (by norm_num) (by norm_num)
  simp only [Line.intersectLine, Line.dimension, length_xarr, length_arr, hpar, ne_eq, not_true_eq_false, if_false, gt_iff_lt, hn3, or_self,
    ok_bind, x1, x2, c1, c2, d1, d2, g1, dot_rd, Vec.norm, k1, sq, s1, hcop]
  cases hb : @Vec.isParallel ℝ rn (@Tol.default ℝ rn) (arr v) (arr w) with
  | error e => right; exact ⟨e, rfl, rfl⟩
  | ok b =>
    cases b
    · have hc0 := cross_ne_zero_rn hn c1 hb
      have hs0 : @PyNum.mul ℝ rn (@normv ℝ rn (arr c)) (@normv ℝ rn (arr c)) ≠ 0 := by
        rw [mul_rd]
        intro h0
        exact (mul_ne_zero (norm_pos_rn hc0) (norm_pos_rn hc0)) ((std53.rp _).eq_zero.mp h0)
      obtain ⟨t1, t2, t3⟩ := ieee_div_low g2.low g2.2 s3 s2.2 hs0 (by norm_num) (by norm_num)
      obtain ⟨y, y1, y2, y3⟩ := ieee_smul_low t2 hv t3 hv.lv (by norm_num) (by norm_num)
      obtain ⟨z, z1, z2, z3⟩ := ieee_vadd (hp.mono (by norm_num) (by norm_num)) y3 (by norm_num) (by norm_num)
      simp only [ok_bind, Bool.false_eq_true, if_false, t1, y1, y2, z1, z2]
      have z3' : RV 502 451 z := z3.mono (by norm_num) (by norm_num)
      cases check
      · left; exact ⟨z, rfl, rfl, z3'⟩
      · simp only [if_true]
        cases @Line.isCoplanar ℝ rn (viaFloats ext) none ⟨arr p, arr v⟩ (.line ⟨arr q, arr w⟩) with
        | error e => right; exact ⟨e, rfl, rfl⟩
        | ok b =>
          cases b
          · right; exact ⟨_, rfl, rfl⟩
          · left; exact ⟨z, rfl, rfl, z3'⟩
    · right; exact ⟨_, rfl, rfl⟩

/-- Norms in any dimension are not too small. -/
theorem norm_low_n {m M : ℤ} {x : E n} (hn : n ≤ 2 ^ 53) (hx : RV m M x) (hm : 2 * m ≤ 1022) (hM : 2 * M + 54 ≤ 1023) :
    Low m (@normv ℝ rn (arr x)) := by
  obtain ⟨-, -, h2⟩ := ieee_dot hn hx hx (by omega) (by omega)
  have h3 : 0 ≤ @dotv ℝ rn (arr x) (arr x) :=
    ((roundNearest_std (p := 53) (by norm_num)).dotv_self_rp le_rfl (CRP.refl _ x)).nonneg (by positivity)
  have e' : @normv ℝ rn (arr x) = roundNearest 53 (Real.sqrt (@dotv ℝ rn (arr x) (arr x))) := by
    unfold normv
    rw [toFloats_rd]
    rfl
  rw [e']
  refine rn_low ?_
  rcases h2.low with h0 | h0
  · left; rw [h0, Real.sqrt_zero]
  · right
    rw [abs_of_nonneg (Real.sqrt_nonneg _)]
    refine Real.le_sqrt_of_sq_le ?_
    rw [abs_of_nonneg h3] at h0
    refine le_trans (le_of_eq ?_) h0
    rw [← zpow_natCast, ← zpow_mul]
    congr 1
    push_cast
    ring

private theorem quot_arith {d m a b e1 e2 : ℝ} (ha : 0 < a) (hd : d ≤ e1 * a) (hm : e2 * a ≤ m) (h2 : 0 < e2) (h : e1 ≤ b * e2) (hb : 0 ≤ b) :
    d / m ≤ b := by
  have hm0 : 0 < m := lt_of_lt_of_le (by positivity) hm
  rw [div_le_iff₀ hm0]
  have h3 : e1 * a ≤ b * e2 * a := mul_le_mul_of_nonneg_right h ha.le
  have h4 : b * (e2 * a) ≤ b * m := mul_le_mul_of_nonneg_left hm hb
  linarith

private theorem exp11 : Real.exp (11 * eps u53) ≤ 8 := by
  rw [std53.exp_eps, show (11 : ℝ) = ((11 : ℕ) : ℝ) by norm_num, Real.rpow_natCast]
  have h1 : (9 / 10 : ℝ) ≤ 1 - u53 := by norm_num
  have h2 : (9 / 10 : ℝ) ^ 11 ≤ (1 - u53) ^ 11 := pow_le_pow_left₀ (by norm_num) h1 _
  rw [inv_le_comm₀ (lt_of_lt_of_le (by norm_num) h2) (by norm_num)]
  refine le_trans ?_ h2
  norm_num

private theorem rp_lower {k ε a x K : ℝ} (h : RP ε k a x) (hx : 0 ≤ x) (hk : k * ε ≤ K) : Real.exp (-K) * x ≤ a := by
  obtain ⟨δ, h1, rfl⟩ := h
  rw [mul_comm]
  refine mul_le_mul_of_nonneg_left (Real.exp_le_exp.mpr ?_) hx
  linarith [(abs_le.mp h1).1]

/-- The quotient in the cosine is at most 8. -/
theorem cos_quot_le (hn : n ≤ 3) {x y : E n} (hx0 : x ≠ 0) (hy0 : y ≠ 0) :
    |@dotv ℝ rn (arr x) (arr y) / @PyNum.mul ℝ rn (@normv ℝ rn (arr x)) (@normv ℝ rn (arr y))| ≤ 8 := by
  have hn3 : (n : ℝ) ≤ 3 := by exact_mod_cast hn
  have he := std53.eps_nonneg
  have hx := norm_pos_iff.mpr hx0
  have hy := norm_pos_iff.mpr hy0
  have d1 := std53.dotv_abs' le_rfl le_rfl (CRP.refl _ x) (CRP.refl _ y)
  have hnx : ∀ z : E n, Real.exp (-(3 * eps u53)) * ‖z‖ ≤ @normv ℝ rn (arr z) := fun z =>
    rp_lower (std53.normv_rp le_rfl (CRP.refl _ z)) (norm_nonneg z) (by
      refine mul_le_mul_of_nonneg_right ?_ he
      linarith)
  have p1 : Real.exp (-(6 * eps u53)) * (‖x‖ * ‖y‖) ≤ @normv ℝ rn (arr x) * @normv ℝ rn (arr y) := by
    calc _ = (Real.exp (-(3 * eps u53)) * ‖x‖) * (Real.exp (-(3 * eps u53)) * ‖y‖) := by
          rw [show -(6 * eps u53) = -(3 * eps u53) + -(3 * eps u53) by ring, Real.exp_add]; ring
      _ ≤ _ := mul_le_mul (hnx x) (hnx y) (by positivity) ((by positivity : (0 : ℝ) ≤ _).trans (hnx x))
  have p2 : Real.exp (-(7 * eps u53)) * (‖x‖ * ‖y‖) ≤ @PyNum.mul ℝ rn (@normv ℝ rn (arr x)) (@normv ℝ rn (arr y)) := by
    rw [mul_rd]
    have h0 : 0 ≤ @normv ℝ rn (arr x) * @normv ℝ rn (arr y) := (by positivity : (0 : ℝ) ≤ _).trans p1
    refine le_trans ?_ (rp_lower (std53.rp _) h0 le_rfl)
    rw [show -(7 * eps u53) = -(1 * eps u53) + -(6 * eps u53) by ring, Real.exp_add, mul_assoc]
    exact mul_le_mul_of_nonneg_left p1 (Real.exp_nonneg _)
  have hd : |@dotv ℝ rn (arr x) (arr y)| ≤ Real.exp (4 * eps u53) * (‖x‖ * ‖y‖) := by
    have h1 : Real.exp (((0 : ℝ) + 0 + 1 + n) * eps u53) ≤ Real.exp (4 * eps u53) :=
      Real.exp_le_exp.mpr (mul_le_mul_of_nonneg_right (by linarith) he)
    have h2 := abs_real_inner_le_norm x y
    have h3 := abs_sub_abs_le_abs_sub (@dotv ℝ rn (arr x) (arr y)) (inner ℝ x y)
    have h4 := mul_le_mul_of_nonneg_right h1 (by positivity : 0 ≤ ‖x‖ * ‖y‖)
    have h5 : (Real.exp (((0 : ℝ) + 0 + 1 + n) * eps u53) - 1) * (‖x‖ * ‖y‖) =
        Real.exp (((0 : ℝ) + 0 + 1 + n) * eps u53) * (‖x‖ * ‖y‖) - ‖x‖ * ‖y‖ := by ring
    rw [h5] at d1
    linarith
  rw [abs_div, abs_of_nonneg ((by positivity : (0 : ℝ) ≤ _).trans p2)]
  refine quot_arith (by positivity) hd p2 (Real.exp_pos _) ?_ (by norm_num)
  have : Real.exp (4 * eps u53) = Real.exp (11 * eps u53) * Real.exp (-(7 * eps u53)) := by rw [← Real.exp_add]; ring_nf
  rw [this]
  exact mul_le_mul_of_nonneg_right exp11 (Real.exp_nonneg _)

/-- The cosine of the angle between vectors of a very wide range: either it is the correctly rounded one, or both are tiny. -/
theorem cosineT_ie [NeZero n] (hn : n ≤ 3) {x y : E n} (hx : RV 502 452 x) (hy : RV 502 452 y) (hx0 : x ≠ 0) (hy0 : y ≠ 0) :
    ∃ c c', @Vec.cosineSimilarity ℝ rn (arr x) (arr y) = .ok c ∧ @Vec.cosineSimilarity XReal ieee (xarr x) (xarr y) = .ok (fin c') ∧
      ((c' = c ∧ Rng 952 0 c) ∨ (|c| ≤ (2 : ℝ) ^ (-900 : ℤ) ∧ |c'| ≤ (2 : ℝ) ^ (-900 : ℤ))) := by
  classical
  have hn' : n ≤ 2 ^ 53 := hn.trans (by norm_num)
  obtain ⟨a1, a2⟩ := ieee_norm hn' hx (by norm_num) (by norm_num)
  obtain ⟨b1, b2⟩ := ieee_norm hn' hy (by norm_num) (by norm_num)
  obtain ⟨p1, p2, p3⟩ := ieee_mul_low a2 b2 (norm_low_n hn' hx (by norm_num) (by norm_num)) (norm_low_n hn' hy (by norm_num) (by norm_num))
    (by norm_num) (by norm_num)
  obtain ⟨-, d1, d2⟩ := ieee_dot hn' hx hy (by norm_num) (by norm_num)
  have hp : @PyNum.mul ℝ rn (@normv ℝ rn (arr x)) (@normv ℝ rn (arr y)) ≠ 0 := by
    rw [mul_rd]
    intro h0
    exact (mul_ne_zero (norm_pos_rn hx0) (norm_pos_rn hy0)) ((std53.rp _).eq_zero.mp h0)
  have hq8 := cos_quot_le hn hx0 hy0
  obtain ⟨q0, hq0⟩ : ∃ q0, q0 = @dotv ℝ rn (arr x) (arr y) / @PyNum.mul ℝ rn (@normv ℝ rn (arr x)) (@normv ℝ rn (arr y)) := ⟨_, rfl⟩
  rw [← hq0] at hq8
  have hdr : @PyNum.div ℝ rn (@dotv ℝ rn (arr x) (arr y)) (@PyNum.mul ℝ rn (@normv ℝ rn (arr x)) (@normv ℝ rn (arr y))) = roundNearest 53 q0 := by
    rw [div_rd, ← hq0]
    rfl
  have hdi : @PyNum.div XReal ieee (fin (@dotv ℝ rn (arr x) (arr y))) (fin (@PyNum.mul ℝ rn (@normv ℝ rn (arr x)) (@normv ℝ rn (arr y)))) =
      binary64 (fin q0) := by
    show binary64 (XReal.div (fin _) (fin _)) = _
    rw [hq0]
    simp only [XReal.div, hp, if_false]
  obtain ⟨q', hq', hcase⟩ : ∃ q', binary64 (fin q0) = fin q' ∧ ((q' = roundNearest 53 q0 ∧ Mul2 952 q') ∨
      (|roundNearest 53 q0| ≤ (2 : ℝ) ^ (-900 : ℤ) ∧ |q'| ≤ (2 : ℝ) ^ (-900 : ℤ))) := by
    rcases le_total ((2 : ℝ) ^ (-900 : ℤ)) |q0| with h | h
    · refine ⟨_, binary64_fin (.inr ((zpow_le_zpow_right₀ (by norm_num) (by norm_num)).trans h)) (hq8.trans ?_), .inl ⟨rfl, ?_⟩⟩
      · calc (8 : ℝ) = (2 : ℝ) ^ (3 : ℤ) := by norm_num
          _ ≤ _ := zpow_le_zpow_right₀ (by norm_num) (by norm_num)
      · exact rn_mul2_of_le (s := 900) (.inr h)
    · obtain ⟨z, z1, z2⟩ := binary64_of_le (y := q0) (M := -900) (j := 1) (by norm_num) (by norm_num) (by norm_num) (by rw [Nat.cast_one, one_mul]; exact h)
      rw [Nat.cast_one, one_mul] at z2
      exact ⟨z, z1, .inr ⟨rn_abs_le (rn_pow _) h, z2⟩⟩
  refine ⟨@clip ℝ rn (roundNearest 53 q0) (@PyNum.ofInt ℝ rn (-1)) (@one ℝ rn), @clip ℝ rn q' (@PyNum.ofInt ℝ rn (-1)) (@one ℝ rn), ?_, ?_, ?_⟩
  · simp only [Vec.cosineSimilarity, new1D_rd, ok_bind, Vec.norm, eq_rd, zero_rd, hp, decide_false, Bool.false_eq_true, if_false,
      dot_rd, pure_ok, hdr]
  · simp only [Vec.cosineSimilarity, ieee_new1D, ok_bind, Vec.norm, a1, b1, p1, ieee_zero, ieee_eq, eq_rd, zero_rd, hp, decide_false,
      Bool.false_eq_true, if_false, d1, hdi, hq', clip_ie, pure_ok]
  · rw [clip_rn, clip_rn]
    rcases hcase with ⟨h1, h2⟩ | ⟨h1, h2⟩
    · left
      subst h1
      refine ⟨rfl, ?_, ?_⟩
      · rcases max_choice (-1 : ℝ) (min (roundNearest 53 q0) 1) with h | h
        · rw [h]; exact (Rng.one.neg.mono (by norm_num) le_rfl : Rng 952 0 (-1)).1
        · rw [h]
          rcases min_choice (roundNearest 53 q0) 1 with h | h
          · rw [h]; exact h2
          · rw [h]; exact (Rng.one.mono (by norm_num) le_rfl : Rng 952 0 1).1
      · rw [zpow_zero, abs_le]
        exact ⟨le_max_left _ _, max_le (by norm_num) (min_le_right _ _)⟩
    · right
      have hcl : ∀ z : ℝ, |z| ≤ (2 : ℝ) ^ (-900 : ℤ) → |max (-1) (min z 1)| ≤ (2 : ℝ) ^ (-900 : ℤ) := by
        intro z hz
        have h9 : (2 : ℝ) ^ (-900 : ℤ) ≤ 1 := by
          calc (2 : ℝ) ^ (-900 : ℤ) ≤ (2 : ℝ) ^ (0 : ℤ) := zpow_le_zpow_right₀ (by norm_num) (by norm_num)
            _ = 1 := zpow_zero _
        have hz' := abs_le.mp (hz.trans h9)
        rwa [min_eq_left hz'.2, max_eq_right hz'.1]
      exact ⟨hcl _ h1, hcl _ h2⟩

private theorem two900 : (2 : ℝ) ^ (-900 : ℤ) ≤ 1 / 4 := by
  calc (2 : ℝ) ^ (-900 : ℤ) ≤ (2 : ℝ) ^ (-2 : ℤ) := zpow_le_zpow_right₀ (by norm_num) (by norm_num)
    _ = 1 / 4 := by norm_num

/-- A tiny cosine is not close to `-1`, in either arithmetic. -/
theorem isclose_tiny {c c' : ℝ} (hc : |c| ≤ (2 : ℝ) ^ (-900 : ℤ)) (hc' : |c'| ≤ (2 : ℝ) ^ (-900 : ℤ)) :
    @isclose ℝ rn (@Tol.default ℝ rn) c (@PyNum.ofInt ℝ rn (-1)) = .ok false ∧
      @isclose XReal ieee (@Tol.default XReal ieee) (fin c') (@PyNum.ofInt XReal ieee (-1)) = .ok false := by
  classical
  obtain ⟨r, r0, r1, r2, r3⟩ := ieee_tol'
  have hr : r ≤ 1 / 4 := by
    rw [tolDefault_rd] at r1
    have h1 : roundNearest 53 (1 / 1000000000) = r := congrArg Tol.rel r1
    have h2 : |roundNearest 53 (1 / 1000000000)| ≤ (2 : ℝ) ^ (-2 : ℤ) := rn_abs_le (rn_pow _) (by rw [abs_of_nonneg (by norm_num)]; norm_num)
    rw [h1] at h2
    have := (abs_le.mp h2).2
    norm_num at this
    linarith
  have hra : |r| ≤ 1 / 4 := by rw [abs_of_nonneg r0]; exact hr
  -- bounds of rounded numbers
  have hbig : ∀ z : ℝ, |z| ≤ 1 / 4 → 1 / 2 ≤ |roundNearest 53 (-1 - z)| := by
    intro z hz
    have h1 : (-1 - z) ≤ -(1 / 2) := by linarith [(abs_le.mp hz).1]
    have h2 := roundNearest_mono (p := 53) (by norm_num) h1
    have h3 : roundNearest 53 (-(1 / 2) : ℝ) = -(1 / 2) := by
      rw [roundNearest_neg, show (1 / 2 : ℝ) = (2 : ℝ) ^ (-1 : ℤ) by norm_num, rn_pow]
    rw [h3] at h2
    rw [abs_of_neg (by linarith)]
    linarith
  have hsmall : ∀ z : ℝ, |z| ≤ 1 / 4 → |roundNearest 53 (r * z)| ≤ 1 / 4 := by
    intro z hz
    rw [show (1 / 4 : ℝ) = (2 : ℝ) ^ (-2 : ℤ) by norm_num]
    refine rn_abs_le (rn_pow _) ?_
    rw [abs_mul, show (2 : ℝ) ^ (-2 : ℤ) = 1 / 4 by norm_num]
    nlinarith [abs_nonneg r, abs_nonneg z]
  have hr1 : |roundNearest 53 (r * -1)| ≤ 1 / 4 := by
    rw [show (1 / 4 : ℝ) = (2 : ℝ) ^ (-2 : ℤ) by norm_num]
    refine rn_abs_le (rn_pow _) ?_
    rw [abs_mul, abs_neg, abs_one, mul_one, show (2 : ℝ) ^ (-2 : ℤ) = 1 / 4 by norm_num]
    exact hra
  have hc4 := hc.trans two900
  have hc4' := hc'.trans two900
  have ne : ∀ z : ℝ, |z| ≤ 1 / 4 → z ≠ -1 := by
    intro z hz h; rw [h] at hz; norm_num at hz
  constructor
  · rw [r1]
    have g1 := hbig c hc4
    have g2 := hsmall c hc4
    have n1 : ¬ |roundNearest 53 (-1 - c)| ≤ |roundNearest 53 (r * -1)| := by linarith
    have n2 : ¬ |roundNearest 53 (-1 - c)| ≤ |roundNearest 53 (r * c)| := by linarith
    have n3 : ¬ |roundNearest 53 (-1 - c)| ≤ 0 := by linarith
    have e0 : ∀ z, (leftToRight (roundNearest 53)).fl z = roundNearest 53 z := fun _ => rfl
    simp only [isclose, zero_rd, lt_rd, lt_irrefl, not_lt.mpr r0, toFloat_rd, ofInt_rd, Int.cast_neg, Int.cast_one, eq_rd, ne c hc4, isFinite_rd, abs_rd,
      sub_rd, mul_rd, le_rd, e0, n1, n2, n3, decide_false, Bool.or_self, Bool.false_eq_true, if_false, Bool.not_true, Bool.false_and]
  · rw [r2]
    have g1 := hbig c' hc4'
    have s1 : @PyNum.sub XReal ieee (fin (-1)) (fin c') = fin (roundNearest 53 (-1 - c')) := by
      show binary64 (XReal.add (fin (-1)) (XReal.neg (fin c'))) = _
      rw [show XReal.add (fin (-1)) (XReal.neg (fin c')) = fin (-1 - c') by simp [XReal.add, XReal.neg, sub_eq_add_neg]]
      have h1 := abs_le.mp hc4'
      have h2 : |-1 - c'| = 1 + c' := by rw [abs_of_neg (by linarith)]; ring
      refine binary64_fin (.inr ?_) ?_
      · rw [h2]
        calc (2 : ℝ) ^ (-1022 : ℤ) ≤ (2 : ℝ) ^ (-1 : ℤ) := zpow_le_zpow_right₀ (by norm_num) (by norm_num)
          _ = 1 / 2 := by norm_num
          _ ≤ _ := by linarith
      · rw [h2]
        calc 1 + c' ≤ (2 : ℝ) ^ (1 : ℤ) := by norm_num; linarith
          _ ≤ _ := zpow_le_zpow_right₀ (by norm_num) (by norm_num)
    have m1 : @PyNum.mul XReal ieee (fin r) (fin (-1)) = fin (roundNearest 53 (r * -1)) := by
      rw [(ieee_mul r3 (Rng.one.neg : Rng 0 0 (-1)) (by norm_num) (by norm_num)).1, mul_rd]
      rfl
    obtain ⟨z, z1, z2⟩ : ∃ z, @PyNum.mul XReal ieee (fin r) (fin c') = fin z ∧ |z| ≤ 1 / 4 := by
      obtain ⟨z, z1, z2⟩ := binary64_of_le (y := r * c') (M := -900) (j := 1) (by norm_num) (by norm_num) (by norm_num) (by
        rw [Nat.cast_one, one_mul, abs_mul]
        calc |r| * |c'| ≤ 1 * |c'| := mul_le_mul_of_nonneg_right (by linarith) (abs_nonneg _)
          _ ≤ _ := by rw [one_mul]; exact hc')
      rw [Nat.cast_one, one_mul] at z2
      exact ⟨z, z1, z2.trans two900⟩
    have n1 : ¬ |roundNearest 53 (-1 - c')| ≤ |roundNearest 53 (r * -1)| := by linarith
    have n2 : ¬ |roundNearest 53 (-1 - c')| ≤ |z| := by linarith
    have n3 : ¬ |roundNearest 53 (-1 - c')| ≤ 0 := by linarith
    rw [show @PyNum.ofInt XReal ieee (-1) = fin (-1) by
      rw [show @PyNum.ofInt XReal ieee (-1) = fin (@PyNum.ofInt ℝ rn (-1)) from rfl, ofInt_rd]; norm_num]
    simp only [isclose, ieee_zero, zero_rd, ieee_lt, lt_rd, lt_irrefl, not_lt.mpr r0, ieee_toFloat, ieee_eq, eq_rd, ne c' hc4', ieee_isFinite,
      s1, m1, z1, ieee_abs, abs_rd, ieee_le, le_rd, n1, n2, n3, decide_false, Bool.or_self, Bool.false_eq_true, if_false, Bool.not_true, Bool.false_and]

/-- `segment.contains_point(y)` for points of a very wide range. -/
theorem containsPoint_wide_ie [NeZero n] (hn : n ≤ 3) {a b y : E n} (ha : RV 502 451 a) (hb : RV 502 451 b) (hy : RV 502 451 y) :
    @LineSegment.containsPoint XReal ieee (@Tol.default XReal ieee) ⟨xarr a, xarr b⟩ (xarr y) =
      @LineSegment.containsPoint ℝ rn (@Tol.default ℝ rn) ⟨arr a, arr b⟩ (arr y) := by
  classical
  have hn' : n ≤ 2 ^ 53 := hn.trans (by norm_num)
  obtain ⟨v, v1, v2, v3⟩ := ieee_fromPoints hy ha (by norm_num) (by norm_num)
  obtain ⟨w, w1, w2, w3⟩ := ieee_fromPoints hy hb (by norm_num) (by norm_num)
  have z1 := isZero_wide_ie hn' (v3.mono (by norm_num) (by norm_num : (451 + 1 : ℤ) ≤ 470))
  have z2 := isZero_wide_ie hn' (w3.mono (by norm_num) (by norm_num : (451 + 1 : ℤ) ≤ 470))
  simp only [LineSegment.containsPoint, v1, v2, w1, w2, ok_bind, z1, z2, isZero_wide_rn]
  by_cases hv0 : v = 0
  · simp only [hv0, decide_true, if_true, pure_ok, ok_bind]
  by_cases hw0 : w = 0
  · simp only [hv0, hw0, decide_true, decide_false, if_true, if_false, pure_ok, ok_bind, Bool.false_eq_true]
  simp only [hv0, hw0, decide_false, Bool.false_eq_true, if_false, pure_ok, ok_bind]
  obtain ⟨c, c', e1, e2, h⟩ := cosineT_ie hn (v3.mono le_rfl (by norm_num)) (w3.mono le_rfl (by norm_num)) hv0 hw0
  rw [e1, e2, ok_bind, ok_bind]
  rcases h with ⟨rfl, h⟩ | ⟨h, h'⟩
  · obtain ⟨r, r1, r2, r3⟩ := ieee_tol
    rw [r1, r2, show @PyNum.ofInt XReal ieee (-1) = fin (@PyNum.ofInt ℝ rn (-1)) from rfl]
    refine ieee_isclose r3 h ?_ (by norm_num) (by norm_num) (by norm_num) (by norm_num)
    rw [ofInt_rd]
    simpa using (Rng.one.neg.mono (by norm_num) le_rfl : Rng 952 0 (-1))
  · rw [(isclose_tiny h h').1, (isclose_tiny h h').2]

/-- **C127** `LineSegment(a, b).intersect_line_segment(LineSegment(c, d))` for everyday end points: binary64 returns the same point, or raises the
same exception, as the computation with unbounded exponent range.  In particular no coordinate is infinite or NaN. -/
theorem C127_intersect_line_segment_same [NeZero n] (hn : n ≤ 3) (ext : NumpyExt XReal) {a b c d : E n} (ha : EverydayV a) (hb : EverydayV b)
    (hc : EverydayV c) (hd : EverydayV d) (check : Bool) :
    @LineSegment.intersectLineSegment XReal ieee ext ⟨xarr a, xarr b⟩ ⟨xarr c, xarr d⟩ check (@Tol.default XReal ieee) =
      asFloats (@LineSegment.intersectLineSegment ℝ rn (viaFloats ext) ⟨arr a, arr b⟩ ⟨arr c, arr d⟩ check (@Tol.default ℝ rn)) := by
  have hn' : n ≤ 2 ^ 53 := hn.trans (by norm_num)
  simp only [LineSegment.intersectLineSegment]
  rcases lineFromPoints_ie hn' ha.rv hb.rv (by norm_num) (by norm_num) with ⟨v, -, v3, v1, v2⟩ | ⟨e, e1, e2⟩
  swap
  · simp only [e1, e2, error_bind, asFloats_error]
  rcases lineFromPoints_ie hn' hc.rv hd.rv (by norm_num) (by norm_num) with ⟨w, -, w3, w1, w2⟩ | ⟨e, e1, e2⟩
  swap
  · simp only [v1, v2, ok_bind, e1, e2, error_bind, asFloats_error]
  simp only [v1, v2, w1, w2, ok_bind]
  rcases intersectLine_seg_ie hn ext ha.rv v3 hc.rv w3 check with ⟨y, y1, y2, y3⟩ | ⟨e, e1, e2⟩
  swap
  · simp only [e1, e2, error_bind, asFloats_error]
  have wide : ∀ {z : E n}, EverydayV z → RV 502 451 z := fun h => h.rv.mono (by norm_num) (by norm_num)
  simp only [y1, y2, ok_bind, containsPoint_wide_ie hn (wide ha) (wide hb) y3, containsPoint_wide_ie hn (wide hc) (wide hd) y3]
  cases @LineSegment.containsPoint ℝ rn (@Tol.default ℝ rn) ⟨arr a, arr b⟩ (arr y) with
  | error e => rfl
  | ok r1 =>
    cases @LineSegment.containsPoint ℝ rn (@Tol.default ℝ rn) ⟨arr c, arr d⟩ (arr y) with
    | error e => rfl
    | ok r2 => cases r1 <;> cases r2 <;> rfl

/-- Segments that the constructor accepts in binary64 are accepted with an unbounded exponent range. -/
theorem segment_of_new_ie [NeZero n] (hn : n ≤ 2 ^ 53) {a b : E n} (ha : ModerateV a) (hb : ModerateV b) {S : LineSegment XReal}
    (hS : @LineSegment.new XReal ieee (xarr a) (xarr b) = .ok S) :
    S = ⟨xarr a, xarr b⟩ ∧ @LineSegment.new ℝ rn (arr a) (arr b) = .ok ⟨arr a, arr b⟩ := by
  rw [(C122_segment hn ha hb ha).1] at hS
  cases hk : @LineSegment.new ℝ rn (arr a) (arr b) with
  | error e => rw [hk] at hS; cases hS
  | ok T =>
    have hT : T = ⟨arr a, arr b⟩ := by
      simp only [LineSegment.new, new1D_rd, ok_bind, bind_ok_iff] at hk
      obtain ⟨c, -, hk⟩ := hk
      split_ifs at hk
      exact (Except.ok.inj hk).symm
    subst hT
    rw [hk] at hS
    exact ⟨(Except.ok.inj hS).symm, rfl⟩

/-- **C127** Intersections of segments in binary64, in dimension at most 3.  The lines through `a`, `b` and through `c`, `d` meet in `x` at an
angle whose sine is at least `s ≥ 1.2e-4`.  The method returns a point within `e` of `x` and within `1.3e-5` lengths of both segments, or it
raises "The line segments must intersect.", but not if `x` is on both segments and far enough from the end points, or, only in space and if
coplanarity is checked, "The lines must be coplanar." -/
theorem C127_intersect_line_segment [NeZero n] {η : ℝ} (hn : n ≤ 3) (ext : NumpyExt XReal) (hN : @StableNumpy η (viaFloats ext)) {a b c d x : E n}
    (ha : EverydayV a) (hb : EverydayV b) (hc : EverydayV c) (hd : EverydayV d) {S T : LineSegment XReal}
    (hS : @LineSegment.new XReal ieee (xarr a) (xarr b) = .ok S) (hT : @LineSegment.new XReal ieee (xarr c) (xarr d) = .ok T)
    {s : ℝ} (hs : s ≤ √(1 - cosE (b - a) (d - c) ^ 2)) (hs0 : 12 / 10 ^ 5 ≤ s) (hxa : x ∈ lineSet a (b - a)) (hxc : x ∈ lineSet c (d - c))
    {e : ℝ} (he : e = u53 * (2 * ‖a‖ + 525 * (dist x a + dist x c) / s ^ 2)) (check : Bool) :
    (∃ y : E n, @LineSegment.intersectLineSegment XReal ieee ext S T check (@Tol.default XReal ieee) = .ok (xarr y) ∧ dist y x ≤ e ∧
        (∃ z ∈ segment ℝ a b, dist y z ≤ 13 / 1000000 * dist a b) ∧ ∃ z ∈ segment ℝ c d, dist y z ≤ 13 / 1000000 * dist c d) ∨
      (@LineSegment.intersectLineSegment XReal ieee ext S T check (@Tol.default XReal ieee) =
          .error (.valueError "The line segments must intersect.") ∧
        ¬ (x ∈ segment ℝ a b ∧ x ∈ segment ℝ c d ∧ ∀ z ∈ [a, b, c, d], x ≠ z ∧ e ≤ 9 / 1000000 * dist x z)) ∨
      (check = true ∧ n = 3 ∧ @LineSegment.intersectLineSegment XReal ieee ext S T check (@Tol.default XReal ieee) =
        .error (.valueError "The lines must be coplanar.")) := by
  have hn' : n ≤ 2 ^ 53 := hn.trans (by norm_num)
  obtain ⟨rfl, hS'⟩ := segment_of_new_ie hn' ha.moderate hb.moderate hS
  obtain ⟨rfl, hT'⟩ := segment_of_new_ie hn' hc.moderate hd.moderate hT
  rw [C127_intersect_line_segment_same hn ext ha hb hc hd check]
  rcases C126_intersect_line_segment (η := η) (ext := viaFloats ext) (hN := hN) hn std53 (by norm_num) hS' hT' hs hs0 hxa hxc he check with
    ⟨y, h1, h2⟩ | ⟨h1, h2⟩ | ⟨h1, h2, h3⟩
  · left; exact ⟨y, by rw [h1, asFloats_ok], h2⟩
  · right; left; exact ⟨by rw [h1, asFloats_error], h2⟩
  · right; right; exact ⟨h1, h2, by rw [h3, asFloats_error]⟩

/-! ### The hypotheses can be met -/

/-- Real NumPy routines, as routines on floats. -/
@[instance_reducible] noncomputable def onFloats (r : NumpyExt ℝ) : NumpyExt XReal where
  matrixRank tol A := r.matrixRank (tol.map XReal.value) (A.map (List.map XReal.value))
  svd full A := ((r.svd full (A.map (List.map XReal.value))).1.map (List.map fin), (r.svd full (A.map (List.map XReal.value))).2.1.map fin,
    (r.svd full (A.map (List.map XReal.value))).2.2.map (List.map fin))
  solve A b := (r.solve (A.map (List.map XReal.value)) (b.map XReal.value)).map (List.map fin)
  lstsq A b := (r.lstsq (A.map (List.map XReal.value)) (b.map XReal.value)).map fin
  minimizePowell f x := (fin (r.minimizePowell (fun a b => (f (fin a) (fin b)).value) (x.1.value, x.2.value)).1,
    fin (r.minimizePowell (fun a b => (f (fin a) (fin b)).value) (x.1.value, x.2.value)).2)

theorem numpyExt_eq {r r' : NumpyExt ℝ} (h1 : r.matrixRank = r'.matrixRank) (h2 : r.svd = r'.svd) (h3 : r.solve = r'.solve) (h4 : r.lstsq = r'.lstsq)
    (h5 : r.minimizePowell = r'.minimizePowell) : r = r' := by
  cases r
  cases r'
  cases h1
  cases h2
  cases h3
  cases h4
  cases h5
  rfl

theorem viaFloats_onFloats (r : NumpyExt ℝ) : viaFloats (onFloats r) = r := by
  have h1 : XReal.value ∘ fin = id := rfl
  have h2 : ∀ l : List ℝ, (l.map fin).map XReal.value = l := fun l => by rw [List.map_map, h1, List.map_id]
  have h3 : ∀ A : List (List ℝ), (A.map (List.map fin)).map (List.map XReal.value) = A := fun A => by
    rw [List.map_map, show List.map XReal.value ∘ List.map fin = id from funext h2, List.map_id]
  have h4 : ∀ t : Option ℝ, (t.map fin).map XReal.value = t := fun t => by cases t <;> rfl
  have h5 : ∀ z : Res (List ℝ), (z.map (List.map fin)).map (List.map XReal.value) = z := fun z => by
    cases z with
    | error e => rfl
    | ok l => exact congrArg Except.ok (h2 l)
  obtain ⟨m, s, so, l, p⟩ := r
  refine numpyExt_eq ?_ ?_ ?_ ?_ ?_
  · funext tol A
    exact congrArg₂ m (h4 tol) (h3 A)
  · funext full A
    show (((s full _).1.map _).map _, ((s full _).2.1.map _).map _, ((s full _).2.2.map _).map _) = s full A
    rw [h3, h3, h3, h2]
  · funext A b
    show ((so _ _).map _).map _ = _
    rw [h5, h3, h2]
    rfl
  · funext A b
    show ((l _ _).map _).map _ = _
    rw [h2, h3, h2]
    rfl
  · rfl

/-- The cross of the segments from `(-1,0,0)` to `(1,0,0)` and from `(0,-1,0)` to `(0,1,0)`, with routines for floats that meet the contract: the
method returns a point within `2·10⁻¹³` of the origin. -/
example : ∃ (ext : NumpyExt XReal) (S T : LineSegment XReal) (y : E 3), @LawfulNumpy (viaFloats ext) ∧
    @LineSegment.new XReal ieee (xarr (vec3 ((-1 : ℤ) : ℝ) 0 0)) (xarr (vec3 ((1 : ℤ) : ℝ) 0 0)) = .ok S ∧
    @LineSegment.new XReal ieee (xarr (vec3 0 ((-1 : ℤ) : ℝ) 0)) (xarr (vec3 0 ((1 : ℤ) : ℝ) 0)) = .ok T ∧
    @LineSegment.intersectLineSegment XReal ieee ext S T false (@Tol.default XReal ieee) = .ok (xarr y) ∧
    dist y (vec3 0 0 0) ≤ 2 / 10 ^ 13 := by
  have hl : @LawfulNumpy (viaFloats (onFloats (realNumpy fun _ x => x))) := by
    rw [viaFloats_onFloats]; exact realNumpy_lawful _
  have m1 := everyday_int (k := -1) (by norm_num)
  have p1 := everyday_int (k := 1) (by norm_num)
  have z := everyday_zero
  have hA := everyday_vec3 m1 z z
  have hB := everyday_vec3 p1 z z
  have hC := everyday_vec3 z m1 z
  have hD := everyday_vec3 z p1 z
  have hS := (C124_segment (by norm_num) hA.moderate hB.moderate hA.moderate).2.1 0 (by simp only [vec3, PiLp.toLp_apply, Matrix.cons_val]; norm_num)
  have hT := (C124_segment (by norm_num) hC.moderate hD.moderate hA.moderate).2.1 1 (by simp only [vec3, PiLp.toLp_apply, Matrix.cons_val]; norm_num)
  obtain ⟨S, T, y, k1, k2, k3, k4⟩ := cross_segments_space _ hl
  have t1 := (segment_of_new_ie (by norm_num) hA.moderate hB.moderate hS).2
  have t2 := (segment_of_new_ie (by norm_num) hC.moderate hD.moderate hT).2
  have em : ((-1 : ℤ) : ℝ) = -1 := by norm_num
  have ep : ((1 : ℤ) : ℝ) = 1 := by norm_num
  rw [em, ep] at t1 t2
  obtain rfl := Except.ok.inj (k1.symm.trans t1)
  obtain rfl := Except.ok.inj (k2.symm.trans t2)
  refine ⟨_, _, _, y, hl, hS, hT, ?_, k4⟩
  rw [C127_intersect_line_segment_same le_rfl _ hA hB hC hD, em, ep, k3, asFloats_ok]

end SkSpatial
