import Verif.Lemmas.Rounding
/-! # Evaluating binary64 rounding on concrete numbers -/

namespace SkSpatial

variable {x y : ℝ}

theorem log_unique {e : ℤ} (h1 : (2 : ℝ) ^ e ≤ x) (h2 : x < (2 : ℝ) ^ (e + 1)) : Int.log 2 |x| = e := by
  have hx : 0 < x := lt_of_lt_of_le (by positivity) h1
  rw [abs_of_pos hx]
  apply le_antisymm
  · have := (Int.lt_zpow_iff_log_lt (b := 2) (by norm_num) (x := e + 1) hx).mp (by exact_mod_cast h2)
    omega
  · exact (Int.zpow_le_iff_le_log (b := 2) (by norm_num) hx).mp (by exact_mod_cast h1)

theorem rint_unique {m : ℤ} (h1 : (m : ℝ) - 1 / 2 < y) (h2 : y < m + 1 / 2) : rintReal y = m := by
  obtain ⟨k, hk, hk2, -⟩ := rintReal_spec y
  rw [hk]
  have := abs_le.mp hk2
  have a1 : (k : ℝ) < m + 1 := by linarith
  have a2 : (m : ℝ) < k + 1 := by linarith
  have a1' : k < m + 1 := by exact_mod_cast a1
  have a2' : m < k + 1 := by exact_mod_cast a2
  have : k = m := by omega
  rw [this]

theorem rint_unique_even {m : ℤ} (hm : Even m) (h1 : (m : ℝ) - 1 / 2 ≤ y) (h2 : y ≤ m + 1 / 2) : rintReal y = m := by
  obtain ⟨k, hk, hk2, hk3⟩ := rintReal_spec y
  rw [hk]
  have hk4 := abs_le.mp hk2
  have a1 : (k : ℝ) ≤ m + 1 := by linarith
  have a2 : (m : ℝ) ≤ k + 1 := by linarith
  have a1' : k ≤ m + 1 := by exact_mod_cast a1
  have a2' : m ≤ k + 1 := by exact_mod_cast a2
  rcases (by omega : k = m + 1 ∨ k = m ∨ m = k + 1) with h | h | h
  · exfalso
    have hr : (k : ℝ) = m + 1 := by exact_mod_cast h
    have := hk3 (by rw [show (k : ℝ) - y = 1 / 2 by linarith]; norm_num)
    rw [h, Int.even_add_one] at this
    exact this hm
  · rw [h]
  · exfalso
    have hr : (m : ℝ) = k + 1 := by exact_mod_cast h
    have := hk3 (by rw [show (k : ℝ) - y = -(1 / 2) by linarith]; norm_num)
    rw [h, Int.even_add_one] at hm
    exact hm this

/-- How binary64 rounds a positive number: exponent `e`, integer significand `m`. -/
theorem rn53 (e m : ℤ) (h1 : (2 : ℝ) ^ e ≤ x) (h2 : x < (2 : ℝ) ^ (e + 1))
    (h3 : (m : ℝ) - 1 / 2 < x * (2 : ℝ) ^ (52 - e)) (h4 : x * (2 : ℝ) ^ (52 - e) < m + 1 / 2)
    (hy : y * (2 : ℝ) ^ (52 - e) = m) : roundNearest 53 x = y := by
  unfold roundNearest
  rw [log_unique h1 h2, show ((53 : ℕ) : ℤ) - 1 - e = 52 - e by norm_num, rint_unique h3 h4, ← hy,
    mul_div_cancel_right₀]
  positivity

theorem rn53_tie (e m : ℤ) (hm : Even m) (h1 : (2 : ℝ) ^ e ≤ x) (h2 : x < (2 : ℝ) ^ (e + 1))
    (h3 : (m : ℝ) - 1 / 2 ≤ x * (2 : ℝ) ^ (52 - e)) (h4 : x * (2 : ℝ) ^ (52 - e) ≤ m + 1 / 2)
    (hy : y * (2 : ℝ) ^ (52 - e) = m) : roundNearest 53 x = y := by
  unfold roundNearest
  rw [log_unique h1 h2, show ((53 : ℕ) : ℤ) - 1 - e = 52 - e by norm_num, rint_unique_even hm h3 h4, ← hy,
    mul_div_cancel_right₀]
  positivity

theorem rn53_neg (e m : ℤ) (h1 : (2 : ℝ) ^ e ≤ -x) (h2 : -x < (2 : ℝ) ^ (e + 1))
    (h3 : (m : ℝ) - 1 / 2 < -x * (2 : ℝ) ^ (52 - e)) (h4 : -x * (2 : ℝ) ^ (52 - e) < m + 1 / 2)
    (hy : -y * (2 : ℝ) ^ (52 - e) = m) : roundNearest 53 x = y := by
  have := rn53 e m h1 h2 h3 h4 hy
  rw [roundNearest_neg] at this
  linarith

theorem rn53_neg_tie (e m : ℤ) (hm : Even m) (h1 : (2 : ℝ) ^ e ≤ -x) (h2 : -x < (2 : ℝ) ^ (e + 1))
    (h3 : (m : ℝ) - 1 / 2 ≤ -x * (2 : ℝ) ^ (52 - e)) (h4 : -x * (2 : ℝ) ^ (52 - e) ≤ m + 1 / 2)
    (hy : -y * (2 : ℝ) ^ (52 - e) = m) : roundNearest 53 x = y := by
  have := rn53_tie e m hm h1 h2 h3 h4 hy
  rw [roundNearest_neg] at this
  linarith

/-- How binary64 rounds a square root; `s = 2^(52 - e)`. -/
theorem rn53_sqrt (e m : ℤ) (hm : 1 ≤ m) (h1 : ((2 : ℝ) ^ e) ^ 2 ≤ x) (h2 : x < ((2 : ℝ) ^ (e + 1)) ^ 2)
    (h3 : ((m : ℝ) - 1 / 2) ^ 2 < x * ((2 : ℝ) ^ (52 - e)) ^ 2)
    (h4 : x * ((2 : ℝ) ^ (52 - e)) ^ 2 < ((m : ℝ) + 1 / 2) ^ 2)
    (hy : y * (2 : ℝ) ^ (52 - e) = m) : roundNearest 53 (Real.sqrt x) = y := by
  have hx : 0 ≤ x := le_trans (by positivity) h1
  obtain ⟨s, hs⟩ : ∃ s, s = (2 : ℝ) ^ (52 - e) := ⟨_, rfl⟩
  have hs0 : 0 < s := by rw [hs]; positivity
  rw [← hs] at h3 h4
  have hm' : (1 : ℝ) ≤ m := by exact_mod_cast hm
  have key : Real.sqrt x * s = Real.sqrt (x * s ^ 2) := by
    rw [Real.sqrt_mul hx, Real.sqrt_sq hs0.le]
  refine rn53 e m ?_ ?_ ?_ ?_ hy
  · exact Real.le_sqrt_of_sq_le h1
  · rw [Real.sqrt_lt' (by positivity)]; exact h2
  · rw [← hs, key]; exact Real.lt_sqrt_of_sq_lt h3
  · rw [← hs, key, Real.sqrt_lt' (by linarith)]; exact h4

/-! ### The vector operations on two and three coordinates -/

section
variable (fl : ℝ → ℝ) (a0 a1 a2 b0 b1 b2 t : ℝ)

theorem fromPoints_2 : @Vec.fromPoints ℝ (rounded (leftToRight fl)) [a0, a1] [b0, b1] = .ok [fl (b0 - a0), fl (b1 - a1)] := rfl
theorem fromPoints_3 : @Vec.fromPoints ℝ (rounded (leftToRight fl)) [a0, a1, a2] [b0, b1, b2] =
    .ok [fl (b0 - a0), fl (b1 - a1), fl (b2 - a2)] := rfl
theorem vadd_2 : @vadd ℝ (rounded (leftToRight fl)) [a0, a1] [b0, b1] = .ok [fl (a0 + b0), fl (a1 + b1)] := rfl
theorem vadd_3 : @vadd ℝ (rounded (leftToRight fl)) [a0, a1, a2] [b0, b1, b2] =
    .ok [fl (a0 + b0), fl (a1 + b1), fl (a2 + b2)] := rfl
theorem vsub_3 : @vsub ℝ (rounded (leftToRight fl)) [a0, a1, a2] [b0, b1, b2] =
    .ok [fl (a0 - b0), fl (a1 - b1), fl (a2 - b2)] := rfl
theorem smul_2 : @smul ℝ (rounded (leftToRight fl)) t [a0, a1] = [fl (t * a0), fl (t * a1)] := rfl
theorem smul_3 : @smul ℝ (rounded (leftToRight fl)) t [a0, a1, a2] = [fl (t * a0), fl (t * a1), fl (t * a2)] := rfl
theorem sdiv_2 : @sdiv ℝ (rounded (leftToRight fl)) [a0, a1] t = [fl (a0 / t), fl (a1 / t)] := rfl
theorem sdiv_3 : @sdiv ℝ (rounded (leftToRight fl)) [a0, a1, a2] t = [fl (a0 / t), fl (a1 / t), fl (a2 / t)] := rfl
theorem dotv_2 : @dotv ℝ (rounded (leftToRight fl)) [a0, a1] [b0, b1] = fl (fl (0 + fl (a0 * b0)) + fl (a1 * b1)) := by
  show fl (fl (0 + fl (a0 * b0)) + fl (a1 * b1)) = _
  rfl
theorem dotv_3 : @dotv ℝ (rounded (leftToRight fl)) [a0, a1, a2] [b0, b1, b2] =
    fl (fl (fl (0 + fl (a0 * b0)) + fl (a1 * b1)) + fl (a2 * b2)) := by
  show fl (fl (fl (0 + fl (a0 * b0)) + fl (a1 * b1)) + fl (a2 * b2)) = _
  rfl
theorem dot_2 : @dot ℝ (rounded (leftToRight fl)) [a0, a1] [b0, b1] = .ok (fl (fl (0 + fl (a0 * b0)) + fl (a1 * b1))) := by
  rw [← dotv_2 fl a0 a1 b0 b1]; rfl
theorem dot_3 : @dot ℝ (rounded (leftToRight fl)) [a0, a1, a2] [b0, b1, b2] =
    .ok (fl (fl (fl (0 + fl (a0 * b0)) + fl (a1 * b1)) + fl (a2 * b2))) := by
  rw [← dotv_3 fl a0 a1 a2 b0 b1 b2]; rfl
theorem norm_2 : @Vec.norm ℝ (rounded (leftToRight fl)) [a0, a1] = fl (Real.sqrt (fl (fl (0 + fl (a0 * a0)) + fl (a1 * a1)))) := by
  rw [← dotv_2 fl a0 a1 a0 a1]; rfl
theorem norm_3 : @Vec.norm ℝ (rounded (leftToRight fl)) [a0, a1, a2] =
    fl (Real.sqrt (fl (fl (fl (0 + fl (a0 * a0)) + fl (a1 * a1)) + fl (a2 * a2)))) := by
  rw [← dotv_3 fl a0 a1 a2 a0 a1 a2]; rfl
theorem new1D_2 : @new1D ℝ (rounded (leftToRight fl)) [a0, a1] = .ok [a0, a1] := rfl
theorem new1D_3 : @new1D ℝ (rounded (leftToRight fl)) [a0, a1, a2] = .ok [a0, a1, a2] := rfl
end

theorem arr_vec2 (a b : ℝ) : arr (vec2 a b) = [a, b] := by simp [arr, vec2, List.ofFn_succ]

end SkSpatial
