import Verif.Props.Rounding
/-! # C75 - C77: signs, unit vectors and angles under rounding -/

namespace SkSpatial
open StdRounding

variable {u : ℝ} {fl : Arith} {n : ℕ}

/-! ## C75 -/

theorem intSign_rd (fl : Arith) (z : ℝ) :
    @intSign ℝ (rounded fl) z = .ok (if 0 < z then 1 else if z < 0 then -1 else 0) := by
  simp only [intSign, lt_rd, zero_rd, eq_rd, decide_eq_true_eq]
  split_ifs with h1 h2 h3
  · rfl
  · rfl
  · rfl
  · exact absurd (le_antisymm (not_lt.mp h1) (not_lt.mp h2)) h3

theorem sideVector_rd (fl : Arith) (x y : E 2) :
    @Vec.sideVector ℝ (rounded fl) (arr x) (arr y) =
      @intSign ℝ (rounded fl) (fl (fl (y 0 * x 1) - fl (y 1 * x 0))) := by
  have h3 : ∀ x : E 2, @setDimension ℝ (rounded fl) 3 (arr x) = .ok (arr (vec3 (x 0) (x 1) 0)) := by
    intro x
    have := new1D_rd (fl := fl) (vec3 (x 0) (x 1) 0)
    simp only [arr3] at this ⊢
    simpa [setDimension, arr2, zero_rd, vec3] using this
  simp only [Vec.sideVector, new1D_rd, ok_bind, length_arr, h3]
  simp [arr3, cross3, vec3, mul_rd, sub_rd]

/-- C75: for every monotone rounding, `u.side_vector(v)` never reports the wrong side: `1` only for a
vector strictly to the right, `-1` only for a vector strictly to the left (it may report `0` for a vector
that is nearly parallel). -/
theorem C75_side_never_wrong (hm : Monotone fl) (h0 : fl 0 = 0) (x y : E 2) :
    ∃ s, @Vec.sideVector ℝ (rounded fl) (arr x) (arr y) = .ok s ∧
      (s = 1 → 0 < x 1 * y 0 - x 0 * y 1) ∧ (s = -1 → x 1 * y 0 - x 0 * y 1 < 0) ∧
      (s = 1 ∨ s = 0 ∨ s = -1) := by
  rw [sideVector_rd, intSign_rd]
  refine ⟨_, rfl, ?_, ?_, ?_⟩
  · intro h
    split_ifs at h with h1 h2
    · by_contra hc
      have h2 : fl (y 0 * x 1) ≤ fl (y 1 * x 0) := hm (by linarith)
      have h3 := hm (show fl (y 0 * x 1) - fl (y 1 * x 0) ≤ 0 by linarith)
      rw [h0] at h3
      linarith
    all_goals simp at h
  · intro h
    split_ifs at h with h1 h2
    · by_contra hc
      have h2 : fl (y 1 * x 0) ≤ fl (y 0 * x 1) := hm (by linarith)
      have h3 := hm (show 0 ≤ fl (y 0 * x 1) - fl (y 1 * x 0) by linarith)
      rw [h0] at h3
      linarith
  · split_ifs <;> simp

/-- C75: with relative rounding errors, `0` is reported only for a vector whose oriented area with the
first one is lost in the rounding of its two products. -/
theorem C75_side_zero_only_if_close (h : StdRounding u fl) (x y : E 2)
    (hs : @Vec.sideVector ℝ (rounded fl) (arr x) (arr y) = .ok 0) :
    |x 1 * y 0 - x 0 * y 1| ≤ u * (|x 1 * y 0| + |x 0 * y 1|) := by
  rw [sideVector_rd, intSign_rd] at hs
  have hz : fl (fl (y 0 * x 1) - fl (y 1 * x 0)) = 0 := by
    simp only [Except.ok.injEq] at hs
    split_ifs at hs with h1 h2
    · simp at hs
    · exact le_antisymm (not_lt.mp h1) (not_lt.mp h2)
  rw [h.eq_zero] at hz
  have e1 := h.err (y 0 * x 1)
  have e2 := h.err (y 1 * x 0)
  have : x 1 * y 0 - x 0 * y 1 = (fl (y 1 * x 0) - y 1 * x 0) - (fl (y 0 * x 1) - y 0 * x 1) := by
    linarith
  rw [this]
  refine (abs_sub _ _).trans ?_
  rw [mul_comm (x 1), mul_comm (x 0)]
  linarith

/-- Rounding to nearest with 53 bits meets the hypotheses of `C75_side_never_wrong`. -/
example : Monotone (roundNearest 53) ∧ roundNearest 53 0 = 0 :=
  ⟨roundNearest_mono (by norm_num), roundNearest_zero⟩

/-- Nearly parallel vectors to which `C75_side_never_wrong` applies. -/
example : ∃ s, @Vec.sideVector ℝ (rounded (leftToRight (roundNearest 53))) (arr (vec2 0.1 0.3)) (arr (vec2 1 3)) = .ok s ∧
    (s = 1 ∨ s = 0 ∨ s = -1) := by
  obtain ⟨s, h1, -, -, h2⟩ := C75_side_never_wrong (fl := leftToRight (roundNearest 53)) (roundNearest_mono (by norm_num : 1 ≤ 53)) roundNearest_zero
    (vec2 0.1 0.3) (vec2 1 3)
  exact ⟨s, h1, h2⟩

/-! ## C76 -/

theorem unit_rd (h : StdRounding u fl) (x : E n) (hx : x ≠ 0) :
    ∃ z : E n, @Vec.unit ℝ (rounded fl) (arr x) = .ok (arr z) ∧
      CRP (eps u) ((n + 5) / 2) z (‖x‖⁻¹ • x) := by
  have hn := h.normv_rp le_rfl (CRP.refl (eps u) x)
  rw [zero_add] at hn
  obtain ⟨N, hN⟩ : ∃ N, N = @normv ℝ (rounded fl) (arr x) := ⟨_, rfl⟩
  rw [← hN] at hn
  have hN0 : N ≠ 0 := fun h0 => hx (norm_eq_zero.mp (hn.eq_zero.mp h0))
  obtain ⟨z, hz, hi⟩ := sdiv_rd (fl := fl) N x
  refine ⟨z, ?_, fun i => ?_⟩
  · simp only [Vec.unit, Vec.norm, ← hN, eq_rd, zero_rd, hN0, decide_false, Bool.false_eq_true, if_false, hz]
  · rw [hi]
    have := h.step ((RP.refl (eps u) (x i)).div hn)
    rw [show (0 : ℝ) + (n + 3) / 2 + 1 = (n + 5) / 2 by ring] at this
    simpa [div_eq_inv_mul] using this

theorem CRP.norm_rp {ε k : ℝ} (hk : 0 ≤ k * ε) {z d : E n} (h : CRP ε k z d) : RP ε k ‖z‖ ‖d‖ := by
  have key : ∀ (z d : E n), CRP ε k z d → ‖z‖ ≤ Real.exp (k * ε) * ‖d‖ := by
    intro z d h
    rw [← abs_of_nonneg (norm_nonneg z), ← abs_of_pos (Real.exp_pos (k * ε)), ← abs_of_nonneg (norm_nonneg d), ← abs_mul]
    refine sq_le_sq.mp ?_
    rw [mul_pow, EuclideanSpace.norm_sq_eq, EuclideanSpace.norm_sq_eq, Finset.mul_sum]
    refine Finset.sum_le_sum fun i _ => ?_
    rw [← mul_pow]
    refine pow_le_pow_left₀ (norm_nonneg _) ?_ 2
    exact (h i).abs.le (abs_nonneg _)
  exact RP.of_le (norm_nonneg d) (key z d h) (key d z fun i => (h i).symm) hk

/-- C76: `v.unit()` with rounding raises exactly for the zero vector; otherwise every coordinate of the
result has relative error at most `(1-u)^(-(n+5)/2) - 1` and so has its length. -/
theorem C76_unit_error (h : StdRounding u fl) (x : E n) :
    (x = 0 → @Vec.unit ℝ (rounded fl) (arr x) = .error (.valueError "The magnitude must not be zero.")) ∧
    (x ≠ 0 → ∃ z : E n, @Vec.unit ℝ (rounded fl) (arr x) = .ok (arr z) ∧
      ApproxRel u ((n + 5) / 2) ‖z‖ 1 ∧
      ∀ i, ApproxRel u ((n + 5) / 2) |z i| |x i / ‖x‖| ∧ 0 ≤ z i * x i) := by
  constructor
  · intro hx
    have hn := h.normv_rp le_rfl (CRP.refl (eps u) x)
    have h0 : @normv ℝ (rounded fl) (arr x) = 0 := hn.eq_zero.mpr (by simp [hx])
    simp only [Vec.unit, Vec.norm, h0, eq_rd, zero_rd, decide_true, if_true]
  · intro hx
    obtain ⟨z, hz, hc⟩ := unit_rd h x hx
    have he := h.eps_nonneg
    have hn := CRP.norm_rp (by positivity) hc
    have h1 : ‖‖x‖⁻¹ • x‖ = 1 := by
      rw [norm_smul, norm_inv, norm_norm, inv_mul_cancel₀ (norm_ne_zero_iff.mpr hx)]
    rw [h1] at hn
    refine ⟨z, hz, h.approxRel hn zero_le_one, fun i => ⟨?_, ?_⟩⟩
    · have := h.approxRel (hc i).abs (abs_nonneg _)
      simpa [div_eq_inv_mul] using this
    · obtain ⟨δ, -, hδ⟩ := hc i
      rw [hδ]
      simp only [PiLp.smul_apply, smul_eq_mul]
      have := mul_self_nonneg (x i)
      have e : ‖x‖⁻¹ * x i * Real.exp δ * x i = ‖x‖⁻¹ * Real.exp δ * (x i * x i) := by ring
      rw [e]; positivity

end SkSpatial
