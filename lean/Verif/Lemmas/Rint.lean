import Verif.Inst.Real
/-! # Rounding half to even -/

namespace SkSpatial

theorem rintReal_spec (y : ℝ) :
    ∃ m : ℤ, rintReal y = m ∧ |(m : ℝ) - y| ≤ 1 / 2 ∧ (|(m : ℝ) - y| = 1 / 2 → Even m) := by
  have h0 := Int.fract_nonneg y
  have h1 := Int.fract_lt_one y
  have hf : (⌊y⌋ : ℝ) - y = -Int.fract y := by rw [Int.fract]; ring
  unfold rintReal
  split_ifs with a b c
  · refine ⟨⌊y⌋, rfl, ?_, fun h => ?_⟩
    · rw [hf, abs_neg, abs_of_nonneg h0]; exact a.le
    · rw [hf, abs_neg, abs_of_nonneg h0] at h; linarith
  · refine ⟨⌊y⌋ + 1, by push_cast; rfl, ?_, fun h => ?_⟩
    · push_cast; rw [show (⌊y⌋ : ℝ) + 1 - y = 1 - Int.fract y by rw [Int.fract]; ring, abs_of_nonneg (by linarith)]
      linarith
    · push_cast at h
      rw [show (⌊y⌋ : ℝ) + 1 - y = 1 - Int.fract y by rw [Int.fract]; ring, abs_of_nonneg (by linarith)] at h
      linarith
  · refine ⟨⌊y⌋, rfl, ?_, fun _ => c⟩
    rw [hf, abs_neg, abs_of_nonneg h0]; linarith
  · refine ⟨⌊y⌋ + 1, by push_cast; rfl, ?_, fun _ => ?_⟩
    · push_cast; rw [show (⌊y⌋ : ℝ) + 1 - y = 1 - Int.fract y by rw [Int.fract]; ring, abs_of_nonneg (by linarith)]
      linarith
    · exact (Int.not_even_iff_odd.mp c).add_odd odd_one

theorem rintReal_int (m : ℤ) : rintReal (m : ℝ) = m := by
  simp [rintReal]

theorem rintReal_mono : Monotone rintReal := by
  intro y y' h
  obtain ⟨m, e, hm, ht⟩ := rintReal_spec y
  obtain ⟨m', e', hm', ht'⟩ := rintReal_spec y'
  rw [e, e']
  by_contra hc
  push Not at hc
  have hc' : m' < m := by exact_mod_cast hc
  have h1 : (m' : ℝ) + 1 ≤ m := by exact_mod_cast hc'
  rw [abs_le] at hm hm'
  have a1 : (m : ℝ) - y = 1 / 2 := by linarith
  have a2 : (m' : ℝ) - y' = -(1 / 2) := by linarith
  have ev := ht (by rw [a1]; norm_num)
  have ev' := ht' (by rw [a2]; norm_num)
  have : (m : ℝ) = m' + 1 := by linarith
  have : m = m' + 1 := by exact_mod_cast this
  rw [this, Int.even_add_one] at ev
  exact ev ev'

theorem rintReal_neg (y : ℝ) : rintReal (-y) = -rintReal y := by
  obtain ⟨m, e, hm, ht⟩ := rintReal_spec y
  obtain ⟨m', e', hm', ht'⟩ := rintReal_spec (-y)
  rw [e, e']
  have h1 := abs_le.mp hm
  have h2 := abs_le.mp hm'
  have h3 : (m : ℝ) + m' ≤ 1 := by linarith
  have h4 : -1 ≤ (m : ℝ) + m' := by linarith
  have h3' : m + m' ≤ 1 := by exact_mod_cast h3
  have h4' : -1 ≤ m + m' := by exact_mod_cast h4
  have key : m + m' = 0 := by
    rcases (by omega : m + m' = 1 ∨ m + m' = 0 ∨ m + m' = -1) with h | h | h
    · have hr : (m : ℝ) + m' = 1 := by exact_mod_cast h
      have ev := ht (by rw [show (m : ℝ) - y = 1 / 2 by linarith]; norm_num)
      have ev' := ht' (by rw [show (m' : ℝ) - -y = 1 / 2 by linarith]; norm_num)
      have := ev.add ev'
      rw [h] at this
      exact absurd this (by decide)
    · exact h
    · have hr : (m : ℝ) + m' = -1 := by exact_mod_cast h
      have ev := ht (by rw [show (m : ℝ) - y = -(1 / 2) by linarith]; norm_num)
      have ev' := ht' (by rw [show (m' : ℝ) - -y = -(1 / 2) by linarith]; norm_num)
      have := ev.add ev'
      rw [h] at this
      exact absurd this (by decide)
  have : (m' : ℝ) = -m := by
    have : (m : ℝ) + m' = 0 := by exact_mod_cast key
    linarith
  exact this

end SkSpatial
