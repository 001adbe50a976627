import Verif.Lemmas.Bridge
import Mathlib.LinearAlgebra.LinearIndependent.Basic
/-! # Norms and cross products in coordinates -/

namespace SkSpatial

theorem norm_sq2 (u : E 2) : ‖u‖ ^ 2 = u 0 ^ 2 + u 1 ^ 2 := by
  rw [← real_inner_self_eq_norm_sq, inner2]; ring
theorem norm_sq3 (u : E 3) : ‖u‖ ^ 2 = u 0 ^ 2 + u 1 ^ 2 + u 2 ^ 2 := by
  rw [← real_inner_self_eq_norm_sq, inner3]; ring

theorem crossE_inner_left (x y : E 3) : inner ℝ (crossE x y) x = (0 : ℝ) := by
  simp [inner3, crossE, vec3]; ring
theorem crossE_inner_right (x y : E 3) : inner ℝ (crossE x y) y = (0 : ℝ) := by
  simp [inner3, crossE, vec3]; ring
theorem crossE_norm_sq (x y : E 3) :
    ‖crossE x y‖ ^ 2 = ‖x‖ ^ 2 * ‖y‖ ^ 2 - (inner ℝ x y : ℝ) ^ 2 := by
  rw [norm_sq3, norm_sq3, norm_sq3, inner3]
  simp [crossE, vec3]; ring
theorem crossE_anticomm (x y : E 3) : crossE y x = -crossE x y := by
  ext i; fin_cases i <;> simp [crossE, vec3] <;> ring
theorem crossE_eq_zero_iff (x y : E 3) : crossE x y = 0 ↔ ¬ LinearIndependent ℝ ![x, y] := by
  rw [LinearIndependent.pair_iff]
  constructor
  · intro h hli
    have h0 : (crossE x y) 0 = 0 := by rw [h]; rfl
    have h1 : (crossE x y) 1 = 0 := by rw [h]; rfl
    have h2 : (crossE x y) 2 = 0 := by rw [h]; rfl
    simp [crossE, vec3] at h0 h1 h2
    have hx : x ≠ 0 := by
      rintro rfl
      have := (hli 1 0 (by simp)).1
      norm_num at this
    have hrel := hli (inner ℝ x y) (-(‖x‖ ^ 2)) (by
      rw [norm_sq3, inner3]
      ext i
      fin_cases i
      · simp; linear_combination (-(x 2)) * h1 + x 1 * h2
      · simp; linear_combination x 2 * h0 - x 0 * h2
      · simp; linear_combination (-(x 1)) * h0 + x 0 * h1)
    have := hrel.2
    simp at this
    exact hx this
  · intro h
    push Not at h
    obtain ⟨a, b, hab, hne⟩ := h
    have h0 := congrFun (congrArg WithLp.ofLp hab) 0
    have h1 := congrFun (congrArg WithLp.ofLp hab) 1
    have h2 := congrFun (congrArg WithLp.ofLp hab) 2
    simp at h0 h1 h2
    by_cases ha : a = 0
    · have hb := hne ha
      subst ha
      simp [hb] at h0 h1 h2
      ext i; fin_cases i <;> simp [crossE, vec3, h0, h1, h2]
    · ext i
      fin_cases i
      · simp [crossE, vec3]; apply mul_left_cancel₀ ha; linear_combination (y 2) * h1 - (y 1) * h2
      · simp [crossE, vec3]; apply mul_left_cancel₀ ha; linear_combination (y 0) * h2 - (y 2) * h0
      · simp [crossE, vec3]; apply mul_left_cancel₀ ha; linear_combination (y 1) * h0 - (y 0) * h1

end SkSpatial
