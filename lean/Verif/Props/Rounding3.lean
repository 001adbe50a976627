import Verif.Props.Rounding2
/-! # C77: angles and parallelism under rounding -/

namespace SkSpatial
open StdRounding

variable {u : ℝ} {fl : Arith} {n : ℕ}

theorem abs_cosE_le_one (x y : E n) : |cosE x y| ≤ 1 := by
  rw [cosE, abs_div, abs_of_nonneg (by positivity : 0 ≤ ‖x‖ * ‖y‖)]
  exact div_le_one_of_le₀ (abs_real_inner_le_norm x y) (by positivity)

theorem clip_rd (fl : Arith) (c : ℝ) : @clip ℝ (rounded fl) c (@PyNum.ofInt ℝ (rounded fl) (-1))
    (@one ℝ (rounded fl)) = max (-1) (min c 1) := by
  simp only [clip, lt_rd, ofInt_rd, one_rd, decide_eq_true_eq]
  push_cast
  split_ifs with h1 h2
  · rw [min_eq_left (by linarith), max_eq_left h1.le]
  · rw [min_eq_right h2.le, max_eq_right (by norm_num)]
  · rw [min_eq_left (by linarith), max_eq_right (by linarith)]

theorem clip_close {c t : ℝ} (ht : |t| ≤ 1) : |max (-1) (min c 1) - t| ≤ |c - t| := by
  rw [abs_le] at ht
  rcases le_total c (-1) with h | h
  · rw [min_eq_left (by linarith), max_eq_left h, abs_of_nonpos (by linarith), abs_of_nonpos (by linarith)]
    linarith
  · rcases le_total c 1 with h' | h'
    · rw [min_eq_left h', max_eq_right h]
    · rw [min_eq_right h', max_eq_right (by linarith), abs_of_nonneg (by linarith), abs_of_nonneg (by linarith)]
      linarith

/-- The rounded cosine of two perturbed vectors. -/
theorem cosine_rd [NeZero n] (h : StdRounding u fl) {k j : ℝ} (hk : 0 ≤ k) (hj : 0 ≤ j) {z d w e : E n}
    (hz : CRP (eps u) k z d) (hw : CRP (eps u) j w e) (hd : d ≠ 0) (he : e ≠ 0) :
    ∃ c, @Vec.cosineSimilarity ℝ (rounded fl) (arr z) (arr w) = .ok c ∧ |c| ≤ 1 ∧
      |c - cosE d e| ≤ Real.exp ((2 * k + 2 * j + 2 * n + 6) * eps u) - 1 := by
  have hε := h.eps_nonneg
  obtain ⟨P, hP⟩ : ∃ P, P = ‖d‖ * ‖e‖ := ⟨_, rfl⟩
  have hP0 : 0 < P := by rw [hP]; exact mul_pos (norm_pos_iff.mpr hd) (norm_pos_iff.mpr he)
  have hN := h.step ((h.normv_rp hk hz).mul (h.normv_rp hj hw))
  rw [← hP] at hN
  obtain ⟨N, hN'⟩ : ∃ N, N = fl (@normv ℝ (rounded fl) (arr z) * @normv ℝ (rounded fl) (arr w)) := ⟨_, rfl⟩
  rw [← hN'] at hN
  have hN0 : N ≠ 0 := fun h0 => hP0.ne' (hN.eq_zero.mp h0)
  obtain ⟨D, hD⟩ : ∃ D, D = @dotv ℝ (rounded fl) (arr z) (arr w) := ⟨_, rfl⟩
  have hA := h.dotv_abs' hk hj hz hw
  rw [← hD, ← hP] at hA
  refine ⟨max (-1) (min (fl (D / N)) 1), ?_, ?_, ?_⟩
  · simp only [Vec.cosineSimilarity, new1D_rd, ok_bind, Vec.norm, mul_rd, ← hN', eq_rd, zero_rd, hN0,
      decide_false, Bool.false_eq_true, if_false, dot_rd, ← hD, div_rd, pure_ok, clip_rd]
  · rw [abs_le]
    exact ⟨le_max_left _ _, max_le (by norm_num) (min_le_right _ _)⟩
  · have hc1 := abs_cosE_le_one d e
    refine (clip_close hc1).trans ?_
    have hcos : cosE d e = inner ℝ d e / P := by rw [cosE, hP]
    have hq := h.step ((RP.refl (eps u) D).div hN)
    obtain ⟨δ, h1, h2⟩ := hq
    rw [h2]
    obtain ⟨A, hAe⟩ : ∃ A, A = Real.exp ((k + j + 1 + n) * eps u) := ⟨_, rfl⟩
    obtain ⟨B, hB⟩ : ∃ B, B = Real.exp ((0 + (k + (n + 3) / 2 + (j + (n + 3) / 2) + 1) + 1) * eps u) := ⟨_, rfl⟩
    have hAB : Real.exp ((2 * k + 2 * j + 2 * n + 6) * eps u) = A * B := by
      rw [hAe, hB, ← Real.exp_add]; congr 1; ring
    rw [← hAe] at hA
    have hexp : |Real.exp δ - 1| ≤ B - 1 := (RP.abs_exp_sub_one_le δ).trans (by
      rw [hB]; linarith [Real.exp_le_exp.mpr h1])
    have hB1 : 1 ≤ B := by rw [hB]; exact Real.one_le_exp (by positivity)
    have hA1 : 1 ≤ A := by rw [hAe]; exact Real.one_le_exp (by positivity)
    have hr : |D / P - cosE d e| ≤ A - 1 := by
      rw [hcos, ← sub_div, abs_div, abs_of_pos hP0, div_le_iff₀ hP0]; exact hA
    have hDP : |D / P| ≤ A := by
      calc |D / P| = |(D / P - cosE d e) + cosE d e| := by ring_nf
        _ ≤ _ := abs_add_le _ _
        _ ≤ A := by linarith
    rw [hAB]
    calc |D / P * Real.exp δ - cosE d e| = |D / P * (Real.exp δ - 1) + (D / P - cosE d e)| := by ring_nf
      _ ≤ |D / P * (Real.exp δ - 1)| + |D / P - cosE d e| := abs_add_le _ _
      _ = |D / P| * |Real.exp δ - 1| + |D / P - cosE d e| := by rw [abs_mul]
      _ ≤ A * (B - 1) + (A - 1) := add_le_add (mul_le_mul hDP hexp (abs_nonneg _) (by linarith)) hr
      _ = A * B - 1 := by ring

/-- C77: for non-zero vectors the `cosine_similarity` computed with rounding is a number in `[-1, 1]` that
differs from the true cosine by at most `(1-u)^(-(2n+6)) - 1`. -/
theorem C77_cosine_error [NeZero n] (h : StdRounding u fl) (x y : E n) (hx : x ≠ 0) (hy : y ≠ 0) :
    ∃ c, @Vec.cosineSimilarity ℝ (rounded fl) (arr x) (arr y) = .ok c ∧ |c| ≤ 1 ∧
      |c - cosE x y| ≤ 1 / (1 - u) ^ (2 * n + 6) - 1 := by
  obtain ⟨c, h1, h2, h3⟩ := cosine_rd h le_rfl le_rfl (CRP.refl _ x) (CRP.refl _ y) hx hy
  refine ⟨c, h1, h2, ?_⟩
  rw [h.exp_eps] at h3
  have : (2 * 0 + 2 * 0 + 2 * n + 6 : ℝ) = ((2 * n + 6 : ℕ) : ℝ) := by push_cast; ring
  rw [this, Real.rpow_natCast] at h3
  rw [one_div]
  exact h3

/-- A bound on accumulated rounding: `exp (k eps) - 1` is at most `b` if `k u` is a bit smaller. -/
theorem exp_eps_le (h : StdRounding u fl) (k : ℕ) {b : ℝ} (hb : 0 < b) (hk : k * u * (1 + b) ≤ b) :
    Real.exp (k * eps u) - 1 ≤ b := by
  have hu := h.nonneg
  have h1 := h.lt_one
  rw [h.exp_eps, Real.rpow_natCast]
  have hB := one_add_mul_le_pow (show (-2 : ℝ) ≤ -u by linarith) k
  have hp : 0 < (1 - u) ^ k := pow_pos (by linarith) k
  rw [sub_le_iff_le_add, inv_le_comm₀ hp (by linarith)]
  refine le_trans ?_ (le_trans hB (le_of_eq (by ring)))
  rw [inv_le_iff_one_le_mul₀ (by linarith)]
  nlinarith

/-- `math.isclose(a, 1)` with the default tolerances on `[0, 1]`, under rounding. -/
theorem isclose_one_rd (h : StdRounding u fl) (hu : u ≤ 1 / 1000000000) {a : ℝ} (h0 : 0 ≤ a) (h1 : a ≤ 1) :
    ∃ b, @isclose ℝ (rounded fl) (@Tol.default ℝ (rounded fl)) a (@one ℝ (rounded fl)) = .ok b ∧
      (1 - 99 / 100000000000 ≤ a → b = true) ∧ (b = true → 1 - 101 / 100000000000 ≤ a) := by
  classical
  have hu0 := h.nonneg
  rw [tolDefault_rd, one_rd]
  have h9 := h.err (1 / 1000000000)
  rw [abs_of_pos (by norm_num : (0:ℝ) < 1 / 1000000000), abs_le] at h9
  obtain ⟨t, ht⟩ : ∃ t, t = fl (1 / 1000000000) := ⟨_, rfl⟩
  rw [← ht] at h9 ⊢
  have ht0 : 0 ≤ t := by nlinarith
  rw [isclose_rd _ _ _ _ _ ht0 le_rfl]
  refine ⟨_, rfl, fun hc => ?_, fun hb => ?_⟩
  · simp only [decide_eq_true_eq]
    right; left
    rw [mul_one]
    have e1 := h.err (1 - a)
    have e2 := h.err t
    rw [abs_of_nonneg (by linarith : 0 ≤ 1 - a)] at e1
    rw [abs_of_nonneg ht0] at e2
    have f1 := (abs_le.mp e1).2
    have f2 := (abs_le.mp e2).1
    have g1 : |fl (1 - a)| = fl (1 - a) := abs_of_nonneg ((h.rp _).nonneg (by linarith))
    have g2 : |fl t| = fl t := abs_of_nonneg ((h.rp _).nonneg ht0)
    rw [g1, g2]
    have g3 : u * (1 - a) ≤ 1 / 1000000000 * (99 / 100000000000) :=
      mul_le_mul hu (by linarith) (by linarith) (by norm_num)
    have g4 : u * t ≤ 1 / 1000000000 * t := mul_le_mul_of_nonneg_right hu ht0
    nlinarith
  · simp only [decide_eq_true_eq] at hb
    have e1 := h.err (1 - a)
    rw [abs_of_nonneg (by linarith : 0 ≤ 1 - a)] at e1
    have f1 := (abs_le.mp e1).1
    have g1 : |fl (1 - a)| = fl (1 - a) := abs_of_nonneg ((h.rp _).nonneg (by linarith))
    rw [g1] at hb
    have key : ∀ s, 0 ≤ s → s ≤ t → fl (1 - a) ≤ |fl s| → 1 - 101 / 100000000000 ≤ a := by
      intro s hs hst hf
      have e2 := h.err s
      rw [abs_of_nonneg hs] at e2
      have f2 := (abs_le.mp e2).2
      rw [abs_of_nonneg ((h.rp _).nonneg hs)] at hf
      have g3 : u * (1 - a) ≤ 1 / 1000000000 * (1 - a) := mul_le_mul_of_nonneg_right hu (by linarith)
      have g4 : u * s ≤ 1 / 1000000000 * s := mul_le_mul_of_nonneg_right hu hs
      have g5 : u * (1 / 1000000000) ≤ 1 / 1000000000 * (1 / 1000000000) := mul_le_mul_of_nonneg_right hu (by norm_num)
      linarith
    rcases hb with hb | hb | hb | hb
    · linarith
    · exact key (t * 1) (by linarith) (by linarith) hb
    · exact key (t * a) (by positivity) (by nlinarith) hb
    · exact key 0 le_rfl ht0 (by rw [h.zero]; simpa using hb)

/-- C77: `is_parallel` under rounding, for a unit roundoff with `(2n+6) u ≤ 4e-10` (binary64: `n` up to a
million): it returns, exactly parallel vectors and even all pairs with `|cos| ≥ 1 - 5e-10` are accepted,
and an accepted pair has `|cos| ≥ 1 - 1.5e-9`. -/
theorem C77_is_parallel [NeZero n] (h : StdRounding u fl) (hu : (2 * n + 6) * u ≤ 4 / 10000000000) (x y : E n) :
    ∃ b, @Vec.isParallel ℝ (rounded fl) (@Tol.default ℝ (rounded fl)) (arr x) (arr y) = .ok b ∧
      (x = 0 ∨ y = 0 ∨ 1 - 5 / 10000000000 ≤ |cosE x y| → b = true) ∧
      (b = true → x = 0 ∨ y = 0 ∨ 1 - 15 / 10000000000 ≤ |cosE x y|) := by
  classical
  have hu0 := h.nonneg
  have hn1 : (1 : ℝ) ≤ n := by exact_mod_cast Nat.one_le_iff_ne_zero.mpr (NeZero.ne n)
  have hu1 : u ≤ 1 / 10000000000 := by nlinarith
  have hz := C73_is_zero (n := n) h (by linarith)
  simp only [Vec.isParallel, hz, new1D_rd, ok_bind]
  by_cases hx : x = 0
  · simp [hx]
  by_cases hy : y = 0
  · simp [hx, hy]
  obtain ⟨c, hc, hc1, he⟩ := cosine_rd h le_rfl le_rfl (CRP.refl _ x) (CRP.refl _ y) hx hy
  have hK : (2 * 0 + 2 * 0 + 2 * n + 6 : ℝ) = ((2 * n + 6 : ℕ) : ℝ) := by push_cast; ring
  rw [hK] at he
  have hb := exp_eps_le h (2 * n + 6) (b := 41 / 100000000000) (by norm_num) (by push_cast; linarith)
  have he' : |c - cosE x y| ≤ 41 / 100000000000 := he.trans hb
  have hd : |(|c| - |cosE x y|)| ≤ 41 / 100000000000 := (abs_abs_sub_abs_le _ _).trans he'
  rw [abs_le] at hd
  obtain ⟨b, hb, hb1, hb2⟩ := isclose_one_rd h (by linarith) (abs_nonneg c) hc1
  refine ⟨b, ?_, ?_, ?_⟩
  · simp only [hx, hy, decide_false, Bool.false_eq_true, if_false, ok_bind, hc, abs_rd, hb, pure_ok]
  · rintro (h1 | h1 | h1)
    · exact absurd h1 hx
    · exact absurd h1 hy
    · exact hb1 (by linarith)
  · intro h1
    right; right
    have := hb2 h1
    linarith

/-- binary64 rounding in dimension 3 meets the hypotheses of `C77_is_parallel`. -/
example : StdRounding ((2 : ℝ) ^ (-(53 : ℕ) : ℤ)) (leftToRight (roundNearest 53)) ∧
    (2 * ((3 : ℕ) : ℝ) + 6) * (2 : ℝ) ^ (-(53 : ℕ) : ℤ) ≤ 4 / 10000000000 :=
  ⟨roundNearest_std (by norm_num), by norm_num⟩

end SkSpatial
