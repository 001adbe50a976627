import Verif.Lemmas.Similarity
import Verif.Props.RankDefault
/-! # Similarities and `affine_rank` -/

namespace SkSpatial
open Finset

variable {n : ℕ}

namespace Similarity
variable (φ : Similarity n)

theorem pt_sum (S : Finset (E n)) (h : S.Nonempty) :
    (S.card : ℝ)⁻¹ • ∑ x ∈ S, φ.pt x = φ.pt ((S.card : ℝ)⁻¹ • ∑ x ∈ S, x) := by
  have hc : (S.card : ℝ) ≠ 0 := by exact_mod_cast h.card_pos.ne'
  simp only [pt, sum_add_distrib, ← smul_sum, sum_const, map_smul, map_sum, smul_add]
  rw [← Nat.cast_smul_eq_nsmul ℝ, smul_smul _ (S.card : ℝ), inv_mul_cancel₀ hc, one_smul, smul_comm]

open Classical in
theorem spread_pt {P : List (E n)} (hP : P ≠ []) (x : E n) :
    spread (P.map φ.pt).toFinset (φ.U x) = φ.c ^ 2 * spread P.toFinset x := by
  have e : (P.map φ.pt).toFinset = P.toFinset.image φ.pt := by ext y; simp
  have hne : P.toFinset.Nonempty := by simpa using hP
  rw [spread, spread, e, card_image_of_injective _ φ.pt_injective,
    sum_image (fun _ _ _ _ h => φ.pt_injective h), sum_image (fun _ _ _ _ h => φ.pt_injective h),
    φ.pt_sum _ hne, mul_sum]
  refine sum_congr rfl fun q _ => ?_
  rw [pt_sub, vec, real_inner_smul_left, LinearIsometryEquiv.inner_map_map, mul_pow]

open Classical in
theorem card_pt (P : List (E n)) : (P.map φ.pt).toFinset.card = P.toFinset.card := by
  have e : (P.map φ.pt).toFinset = P.toFinset.image φ.pt := by ext y; simp
  rw [e, card_image_of_injective _ φ.pt_injective]

/-- The condition of `C21` moves with the points. -/
theorem subspace_iff {f g : E n → ℝ} (hfg : ∀ x, g (φ.U x) = φ.c ^ 2 * f x) (t : ℝ) (k : ℕ) :
    (∃ U : Submodule ℝ (E n), Module.finrank ℝ U = k ∧ ∀ x ∈ U, x ≠ 0 → (φ.c * t) ^ 2 * ‖x‖ ^ 2 < g x) ↔
    ∃ U : Submodule ℝ (E n), Module.finrank ℝ U = k ∧ ∀ x ∈ U, x ≠ 0 → t ^ 2 * ‖x‖ ^ 2 < f x := by
  have hc : 0 < φ.c ^ 2 := pow_pos φ.pos 2
  constructor
  · rintro ⟨U, hU, h⟩
    refine ⟨U.map (φ.U.symm.toLinearEquiv : E n →ₗ[ℝ] E n), ?_, ?_⟩
    · rw [LinearEquiv.finrank_map_eq, hU]
    · rintro _ ⟨y, hy, rfl⟩ h0
      have hy0 : y ≠ 0 := by rintro rfl; simp at h0
      have h1 := h y hy hy0
      have h2 := hfg (φ.U.symm y)
      rw [LinearIsometryEquiv.apply_symm_apply] at h2
      rw [h2, mul_pow, mul_assoc, mul_lt_mul_iff_right₀ hc] at h1
      simpa using h1
  · rintro ⟨U, hU, h⟩
    refine ⟨U.map (φ.U.toLinearEquiv : E n →ₗ[ℝ] E n), ?_, ?_⟩
    · rw [LinearEquiv.finrank_map_eq, hU]
    · rintro _ ⟨y, hy, rfl⟩ h0
      have hy0 : y ≠ 0 := by rintro rfl; simp at h0
      have h1 := h y hy hy0
      have h2 := hfg y
      have h3 : ‖φ.U y‖ = ‖y‖ := LinearIsometryEquiv.norm_map _ _
      show (φ.c * t) ^ 2 * ‖φ.U y‖ ^ 2 < g (φ.U y)
      rw [h2, h3, mul_pow, mul_assoc, mul_lt_mul_iff_right₀ hc]
      exact h1

variable [NumpyExt ℝ] [LawfulNumpy] [NeZero n]

/-- `affine_rank` does not change under a similarity if the tolerance is scaled with it. -/
theorem affineRank_pt {P : List (E n)} (hP : P ≠ []) (tol : Option ℝ) (htol : ∀ t, tol = some t → 0 ≤ t) :
    Pts.affineRank (tol.map fun t => φ.c * t) (rows (P.map φ.pt)) = Pts.affineRank tol (rows P) := by
  classical
  have hP' : P.map φ.pt ≠ [] := by simpa using hP
  cases tol with
  | some t =>
    have ht := htol t rfl
    obtain ⟨r, hr, h⟩ := C21_affine_rank hP ht
    obtain ⟨r', hr', h'⟩ := C21_affine_rank hP' (mul_nonneg φ.pos.le ht)
    simp only [Option.map_some]
    rw [hr, hr']
    congr 1
    refine le_antisymm ?_ ?_
    · exact (h r').mpr ((φ.subspace_iff (φ.spread_pt hP) t r').mp ((h' r').mp le_rfl))
    · exact (h' r).mpr ((φ.subspace_iff (φ.spread_pt hP) t r).mpr ((h r).mp le_rfl))
  | none =>
    obtain ⟨r, s, hr, hs, hg, h⟩ := C21_affine_rank_default hP
    obtain ⟨r', s', hr', hs', hg', h'⟩ := C21_affine_rank_default hP'
    have e : s' = φ.c * s := by
      have h1 : IsGreatest {v | ∃ x : E n, ‖x‖ = 1 ∧ v = spread (P.map φ.pt).toFinset x} ((φ.c * s) ^ 2) := by
        constructor
        · obtain ⟨x, hx, hv⟩ := hg.1
          refine ⟨φ.U x, by simp [hx], ?_⟩
          rw [φ.spread_pt hP, mul_pow, hv]
        · rintro _ ⟨y, hy, rfl⟩
          have h2 := hg.2 ⟨φ.U.symm y, by simp [hy], rfl⟩
          have h3 := φ.spread_pt hP (φ.U.symm y)
          rw [LinearIsometryEquiv.apply_symm_apply] at h3
          rw [h3, mul_pow]
          exact mul_le_mul_of_nonneg_left h2 (sq_nonneg _)
      exact (pow_left_inj₀ hs' (mul_nonneg φ.pos.le hs) two_ne_zero).mp (hg'.unique h1)
    simp only [Option.map_none]
    rw [hr, hr']
    congr 1
    have key : ∀ k, k ≤ r' ↔ k ≤ r := by
      intro k
      rw [h, h', card_pt, e]
      have := φ.subspace_iff (φ.spread_pt hP) (s * (max P.toFinset.card n : ℕ) * (2 : ℝ)⁻¹ ^ 52) k
      rw [← this]
      simp only [mul_assoc]
    exact le_antisymm ((key r').mp le_rfl) ((key r).mpr le_rfl)

end Similarity
end SkSpatial
