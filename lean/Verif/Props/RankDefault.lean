import Verif.Lemmas.Collinear3
/-! # C21 for NumPy's default tolerance -/

namespace SkSpatial
open Finset

variable {n : ℕ}

open Classical in
theorem spread_nodup {P Q : List (E n)} (hd : Q.Nodup) (hm : ∀ x, x ∈ Q ↔ x ∈ P) (x : E n) :
    ∑ i : Fin (Q.map fun q => q - centroidE Q).length,
      (inner ℝ ((Q.map fun q => q - centroidE Q).get i) x : ℝ) ^ 2 = spread P.toFinset x := by
  have hfin : P.toFinset = Q.toFinset := by ext y; simp [hm]
  have hc : (P.toFinset.card : ℝ)⁻¹ • ∑ p ∈ P.toFinset, p = centroidE Q := by
    rw [hfin, List.toFinset_card_of_nodup hd, List.sum_toFinset _ hd]; simp [centroidE]
  rw [spread, hc, hfin, List.sum_toFinset _ hd]
  rw [← List.sum_ofFn]
  congr 1
  apply List.ext_getElem <;> simp

open Classical in
/-- C21: `affine_rank()` with NumPy's default tolerance is the largest dimension of a subspace in all of
whose directions the distinct points spread (root of the sum of squares about their centroid) by more than
`2⁻⁵² * max(number of distinct points, dimension)` times the largest spread `s`. -/
theorem C21_affine_rank_default [NumpyExt ℝ] [LawfulNumpy] [NeZero n] {P : List (E n)} (hP : P ≠ []) :
    ∃ (r : ℕ) (s : ℝ), Pts.affineRank none (rows P) = .ok r ∧ 0 ≤ s ∧
      IsGreatest {v | ∃ x : E n, ‖x‖ = 1 ∧ v = spread P.toFinset x} (s ^ 2) ∧
      ∀ k : ℕ, k ≤ r ↔ ∃ U : Submodule ℝ (E n), Module.finrank ℝ U = k ∧
        ∀ x ∈ U, x ≠ 0 →
          (s * (max P.toFinset.card n : ℕ) * (2 : ℝ)⁻¹ ^ 52) ^ 2 * ‖x‖ ^ 2 < spread P.toFinset x := by
  obtain ⟨Q, W, σ, V, hd, hnd, hm, -, hr⟩ := affineRank_centered hP none
  have hcard : P.toFinset.card = Q.length := by
    rw [← List.toFinset_card_of_nodup hnd]; congr 1; ext y; simp [hm]
  have hQ : Q ≠ [] := by
    rintro rfl
    obtain ⟨x, hx⟩ := List.exists_mem_of_ne_nil P hP
    exact absurd ((hm x).mpr hx) (by simp)
  have hpos : 0 < min (Q.map fun q => q - centroidE Q).length n := by
    rw [List.length_map]
    exact lt_min (List.length_pos_iff.mpr hQ) (Nat.pos_of_ne_zero (NeZero.ne n))
  refine ⟨_, σ 0, hr, hd.nonneg 0, ⟨⟨V 0, ?_, ?_⟩, ?_⟩, fun k => ?_⟩
  · exact hd.hV.1 ⟨0, hpos⟩
  · rw [← spread_nodup hnd hm, hd.sum_inner_sq, sum_eq_single 0]
    · rw [hd.inner_V hpos hpos]; simp
    · intro b hb hb0
      rw [hd.inner_V (mem_range.mp hb) hpos]; simp [hb0]
    · intro h; exact absurd (mem_range.mpr hpos) h
  · rintro _ ⟨x, hx, rfl⟩
    rw [← spread_nodup hnd hm, hd.sum_inner_sq]
    calc ∑ l ∈ range _, σ l ^ 2 * (inner ℝ (V l) x : ℝ) ^ 2
        ≤ ∑ l ∈ range (min (Q.map fun q => q - centroidE Q).length n), σ 0 ^ 2 * (inner ℝ (V l) x : ℝ) ^ 2 := by
          refine sum_le_sum fun l _ => mul_le_mul_of_nonneg_right ?_ (sq_nonneg _)
          exact pow_le_pow_left₀ (hd.nonneg l) (hd.anti (Nat.zero_le l)) 2
      _ = σ 0 ^ 2 * ∑ l ∈ range (min (Q.map fun q => q - centroidE Q).length n), (inner ℝ (V l) x : ℝ) ^ 2 := by
          rw [mul_sum]
      _ ≤ σ 0 ^ 2 * 1 := by
          refine mul_le_mul_of_nonneg_left ?_ (sq_nonneg _)
          have := hd.bessel x
          rwa [hx, one_pow] at this
      _ = σ 0 ^ 2 := mul_one _
  · have hlen : min Q.length n = min (Q.map fun q => q - centroidE Q).length n := by rw [List.length_map]
    simp only [Option.getD_none]
    rw [hlen, hd.le_cnt_iff, hcard]
    · simp only [spread_nodup hnd hm]
    · exact mul_nonneg (mul_nonneg (hd.nonneg 0) (Nat.cast_nonneg _)) (by positivity)

end SkSpatial
