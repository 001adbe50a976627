import Verif.Props.Rounding23
import Verif.Model.Det
import Verif.Spec.Det
import Mathlib.Analysis.Real.Pi.Bounds
/-! # C114: signed angles, sides and directions under rounding -/

namespace SkSpatial
open StdRounding

variable {u : ℝ} {fl : Arith} {n : ℕ}

/-! ### The argument of a perturbed complex number -/

theorem arg_near_one {q : ℂ} {ρ : ℝ} (hρ : ρ ≤ 1 / 5) (h : ‖q - 1‖ ≤ ρ) : |q.arg| ≤ 2 * ρ := by
  have h0 : 0 ≤ ρ := (norm_nonneg _).trans h
  have hre : |q.re - 1| ≤ ρ := by simpa using (Complex.abs_re_le_norm (q - 1)).trans h
  have him : |q.im| ≤ ρ := by simpa using (Complex.abs_im_le_norm (q - 1)).trans h
  have hre' := abs_le.mp hre
  have hq0 : 0 < q.re := by linarith
  have hn : 1 - ρ ≤ ‖q‖ := by
    have := Complex.abs_re_le_norm q
    rw [abs_of_pos hq0] at this
    linarith
  have hq : q ≠ 0 := by rintro rfl; simp at hq0
  have h1 : |q.arg| < Real.pi / 2 := Complex.abs_arg_lt_pi_div_two_iff.mpr (Or.inl hq0)
  have h2 := Real.mul_le_sin (abs_nonneg q.arg) h1.le
  have h3 : Real.sin |q.arg| ≤ 5 / 4 * ρ := by
    have e : |Real.sin q.arg| = |q.im| / ‖q‖ := by rw [Complex.sin_arg, abs_div, abs_norm]
    have e2 : Real.sin |q.arg| ≤ |Real.sin q.arg| := by
      rcases abs_cases q.arg with ⟨e3, -⟩ | ⟨e3, -⟩ <;> rw [e3]
      · exact le_abs_self _
      · rw [Real.sin_neg]; exact neg_le_abs _
    rw [e] at e2
    refine e2.trans ?_
    rw [div_le_iff₀ (by linarith)]
    nlinarith
  have hpi := Real.pi_pos
  have hpi2 : Real.pi ≤ 32 / 10 := by linarith [Real.pi_lt_d2]
  have h4 : |q.arg| ≤ 5 / 4 * ρ * (Real.pi / 2) := by
    have : 2 / Real.pi * |q.arg| ≤ 5 / 4 * ρ := h2.trans h3
    rw [div_mul_eq_mul_div, div_le_iff₀ hpi] at this
    linarith
  nlinarith

theorem arg_near {z z' : ℂ} {ρ : ℝ} (hz : z ≠ 0) (hρ : ρ ≤ 1 / 5) (h : ‖z' - z‖ ≤ ρ * ‖z‖) :
    AngleNear (2 * ρ) z'.arg z.arg ∧ (|z.arg| + 2 * ρ < Real.pi → |z'.arg - z.arg| ≤ 2 * ρ) := by
  have hzn : 0 < ‖z‖ := norm_pos_iff.mpr hz
  have hq : ‖z' / z - 1‖ ≤ ρ := by
    rw [div_sub_one hz, norm_div, div_le_iff₀ hzn]; exact h
  have hz' : z' ≠ 0 := by
    rintro rfl
    rw [zero_sub, norm_neg] at h
    nlinarith
  have h1 := arg_near_one hρ hq
  have h2 := Complex.arg_div_coe_angle hz' hz
  rw [← Real.Angle.coe_sub, eq_comm, Real.Angle.angle_eq_iff_two_pi_dvd_sub] at h2
  obtain ⟨k, hk⟩ := h2
  have h3 : z'.arg - z.arg - 2 * Real.pi * k = (z' / z).arg := by linarith
  refine ⟨⟨k, by rw [h3]; exact h1⟩, fun hlt => ?_⟩
  have hpi := Real.pi_pos
  have hk0 : k = 0 := by
    have e1 := abs_le.mp (Complex.abs_arg_le_pi z')
    have e2 := abs_le.mp h1
    have e3 := abs_lt.mp (lt_of_le_of_lt le_rfl (show |z.arg| < Real.pi - 2 * ρ by linarith))
    have e4 : 2 * Real.pi * k < 2 * Real.pi * 1 := by linarith
    have e5 : 2 * Real.pi * (-1) < 2 * Real.pi * k := by linarith
    have e6 : (k : ℝ) < 1 := lt_of_mul_lt_mul_left e4 (by positivity)
    have e7 : (-1 : ℝ) < k := lt_of_mul_lt_mul_left e5 (by positivity)
    have e8 : k < 1 := by exact_mod_cast e6
    have e9 : -1 < k := by exact_mod_cast e7
    omega
  rw [hk0, Int.cast_zero, mul_zero, sub_zero] at h3
  rw [h3]; exact h1

/-- The rounded `atan2` of perturbed arguments. -/
theorem atan2_near (h : StdRounding u fl) {x y x' y' N ρ : ℝ} (hN : 0 < N) (hz : ‖(⟨x, y⟩ : ℂ)‖ = N) (hρ : ρ ≤ 1 / 5)
    (he : |x' - x| + |y' - y| ≤ ρ * N) :
    AngleNear (2 * ρ + 4 * u) (fl (Complex.arg ⟨x', y'⟩)) (Complex.arg ⟨x, y⟩) ∧
      (|Complex.arg ⟨x, y⟩| + (2 * ρ + 4 * u) < Real.pi →
        |fl (Complex.arg ⟨x', y'⟩) - Complex.arg ⟨x, y⟩| ≤ 2 * ρ + 4 * u) := by
  have hz0 : (⟨x, y⟩ : ℂ) ≠ 0 := by rw [← norm_pos_iff, hz]; exact hN
  have h1 : ‖(⟨x', y'⟩ : ℂ) - ⟨x, y⟩‖ ≤ ρ * ‖(⟨x, y⟩ : ℂ)‖ := by
    rw [hz]
    refine (Complex.norm_le_abs_re_add_abs_im _).trans ?_
    simpa using he
  have hu := h.nonneg
  have h2 : |fl (Complex.arg ⟨x', y'⟩) - Complex.arg ⟨x', y'⟩| ≤ 4 * u := by
    refine (h.err _).trans ?_
    have := Complex.abs_arg_le_pi ⟨x', y'⟩
    have := Real.pi_lt_d2
    nlinarith
  obtain ⟨⟨k, hk⟩, h4⟩ := arg_near hz0 hρ h1
  constructor
  · refine ⟨k, ?_⟩
    have := abs_add_le (fl (Complex.arg ⟨x', y'⟩) - Complex.arg ⟨x', y'⟩)
      (Complex.arg ⟨x', y'⟩ - Complex.arg ⟨x, y⟩ - 2 * Real.pi * k)
    rw [show fl (Complex.arg ⟨x', y'⟩) - Complex.arg ⟨x', y'⟩ + (Complex.arg ⟨x', y'⟩ - Complex.arg ⟨x, y⟩ - 2 * Real.pi * k) =
      fl (Complex.arg ⟨x', y'⟩) - Complex.arg ⟨x, y⟩ - 2 * Real.pi * k by ring] at this
    linarith
  · intro hlt
    have h5 := h4 (by linarith)
    have := abs_add_le (fl (Complex.arg ⟨x', y'⟩) - Complex.arg ⟨x', y'⟩) (Complex.arg ⟨x', y'⟩ - Complex.arg ⟨x, y⟩)
    rw [sub_add_sub_cancel] at this
    linarith

/-! ### `angle_signed` -/

theorem norm_dot_det (v w : E 2) : ‖(⟨inner ℝ v w, v 0 * w 1 - v 1 * w 0⟩ : ℂ)‖ = ‖v‖ * ‖w‖ := by
  rw [← Real.sqrt_sq (norm_nonneg (⟨inner ℝ v w, v 0 * w 1 - v 1 * w 0⟩ : ℂ)), ← Complex.normSq_eq_norm_sq, Complex.normSq_apply,
    ← Real.sqrt_sq (mul_nonneg (norm_nonneg v) (norm_nonneg w)), mul_pow, norm_sq2, norm_sq2]
  simp only [inner2]
  congr 1; ring

theorem det_products_le (v w : E 2) : |v 0 * w 1| + |v 1 * w 0| ≤ ‖v‖ * ‖w‖ := by
  rw [abs_mul, abs_mul]
  apply le_of_sq_le_sq _ (by positivity)
  rw [mul_pow, norm_sq2, norm_sq2, ← sq_abs (v 0), ← sq_abs (v 1), ← sq_abs (w 0), ← sq_abs (w 1)]
  nlinarith [sq_nonneg (|v 0| * |w 0| - |v 1| * |w 1|)]

theorem angleSignedWith_rd (det : ℝ → ℝ → ℝ → ℝ → ℝ) (v w : E 2) :
    @Vec.angleSignedWith ℝ (rounded fl) det (arr v) (arr w) =
      .ok (fl (Complex.arg ⟨@dotv ℝ (rounded fl) (arr v) (arr w), det (v 0) (v 1) (w 0) (w 1)⟩)) := by
  have hd := dot_rd fl v w
  simp only [Vec.angleSignedWith, new1D_rd, length_arr, if_true, ok_bind, pure_ok, decide_true, Bool.not_true, Bool.false_eq_true,
    if_false, hd]
  simp [arr2, atan2_rd]

/-- C114: `v.angle_signed(w)` under rounding, for non-zero 2D vectors and every determinant routine with an error of at most
`δ (|a d| + |b c|)`: the result differs from the exact signed angle by at most `16 u + 2 δ`, up to full turns, and without them
unless the angle is within that bound of `±π`. -/
theorem C114_angle_signed (h : StdRounding u fl) (hu : u ≤ 1 / 100) {δ : ℝ} (hδ : δ ≤ 1 / 10) {det : ℝ → ℝ → ℝ → ℝ → ℝ}
    (hdet : StableDet δ det) {v w : E 2} (hv : v ≠ 0) (hw : w ≠ 0) :
    ∃ θ θ' : ℝ, Vec.angleSigned (arr v) (arr w) = .ok θ ∧
      @Vec.angleSignedWith ℝ (rounded fl) det (arr v) (arr w) = .ok θ' ∧
      AngleNear (16 * u + 2 * δ) θ' θ ∧ (|θ| + (16 * u + 2 * δ) < Real.pi → |θ' - θ| ≤ 16 * u + 2 * δ) := by
  have hu0 := h.nonneg
  have hv0 : 0 < ‖v‖ := norm_pos_iff.mpr hv
  have hw0 : 0 < ‖w‖ := norm_pos_iff.mpr hw
  refine ⟨_, _, angleSigned_arr v w, angleSignedWith_rd det v w, ?_⟩
  have e1 := h.dotv_abs' le_rfl le_rfl (CRP.refl (eps u) v) (CRP.refl (eps u) w)
  have e2 := exp_eps_le2 h (k := 0 + 0 + 1 + (2 : ℕ)) (by norm_num) (by push_cast; linarith)
  push_cast at e1 e2
  have e3 := (hdet.2 (v 0) (v 1) (w 0) (w 1)).trans (mul_le_mul_of_nonneg_left (det_products_le v w) hdet.1)
  have hN : 0 < ‖v‖ * ‖w‖ := mul_pos hv0 hw0
  have e4 := e1.trans (mul_le_mul_of_nonneg_right e2 hN.le)
  have key := atan2_near h hN (norm_dot_det v w) (ρ := 6 * u + δ) (by linarith)
    (x' := @dotv ℝ (rounded fl) (arr v) (arr w)) (y' := det (v 0) (v 1) (w 0) (w 1)) (by linarith)
  rw [show 2 * (6 * u + δ) + 4 * u = 16 * u + 2 * δ by ring] at key
  exact key

/-- C114: the closed form is a determinant routine with `δ = 4 u`, so `angle_signed` evaluated with it is within `24 u` of the
exact signed angle. -/
theorem C114_angle_signed_closed_form (h : StdRounding u fl) (hu : u ≤ 1 / 100) :
    StableDet (4 * u) (@det2 ℝ (rounded fl)) ∧
    ∀ {v w : E 2}, v ≠ 0 → w ≠ 0 → ∃ θ θ' : ℝ, Vec.angleSigned (arr v) (arr w) = .ok θ ∧
      @Vec.angleSigned ℝ (rounded fl) (arr v) (arr w) = .ok θ' ∧
      AngleNear (24 * u) θ' θ ∧ (|θ| + 24 * u < Real.pi → |θ' - θ| ≤ 24 * u) := by
  have hu0 := h.nonneg
  have hs : StableDet (4 * u) (@det2 ℝ (rounded fl)) := by
    refine ⟨by linarith, fun a b c d => ?_⟩
    have e1 := diff_error_signed h zero_le_one (h.rp (a * d)) (h.rp (b * c))
    have e2 := exp_eps_le2 h (k := 1 + 1) (by norm_num) (by linarith)
    exact e1.trans (mul_le_mul_of_nonneg_right (by linarith) (by positivity))
  refine ⟨hs, fun hv hw => ?_⟩
  obtain ⟨θ, θ', h1, h2, h3⟩ := C114_angle_signed h hu (by linarith) hs hv hw
  rw [show 16 * u + 2 * (4 * u) = 24 * u by ring] at h3
  exact ⟨θ, θ', h1, (@Vec.angleSigned_with ℝ (rounded fl) _ _).trans h2, h3⟩

/-- C114: the signed angle with a zero vector is 0 under rounding too, whatever the (stable) determinant routine. -/
theorem C114_angle_signed_zero (h : StdRounding u fl) {δ : ℝ} {det : ℝ → ℝ → ℝ → ℝ → ℝ} (hdet : StableDet δ det) (v w : E 2)
    (hz : v = 0 ∨ w = 0) : @Vec.angleSignedWith ℝ (rounded fl) det (arr v) (arr w) = .ok 0 := by
  rw [angleSignedWith_rd]
  have e1 := h.dotv_abs' le_rfl le_rfl (CRP.refl (eps u) v) (CRP.refl (eps u) w)
  have e2 := hdet.2 (v 0) (v 1) (w 0) (w 1)
  have h1 : @dotv ℝ (rounded fl) (arr v) (arr w) = 0 := by
    rcases hz with rfl | rfl <;> simpa using e1
  have h2 : det (v 0) (v 1) (w 0) (w 1) = 0 := by
    rcases hz with rfl | rfl <;> simpa using e2
  rw [h1, h2]
  have : (⟨0, 0⟩ : ℂ) = 0 := rfl
  rw [this, Complex.arg_zero, h.zero]

/-! ### `angle_signed_3d` -/

theorem crossE_parallel_rd (h : StdRounding u fl) {v w : E 3} (hc : crossE v w = 0) :
    @Vec.cross ℝ (rounded fl) (arr v) (arr w) = .ok (arr (0 : E 3)) := by
  have e0 : v 1 * w 2 = v 2 * w 1 := by
    have := congrArg (fun x : E 3 => x 0) hc
    simp [crossE, vec3] at this; linarith
  have e1 : v 2 * w 0 = v 0 * w 2 := by
    have := congrArg (fun x : E 3 => x 1) hc
    simp [crossE, vec3] at this; linarith
  have e2 : v 0 * w 1 = v 1 * w 0 := by
    have := congrArg (fun x : E 3 => x 2) hc
    simp [crossE, vec3] at this; linarith
  have h3 : ∀ x : E 3, @setDimension ℝ (rounded fl) 3 (arr x) = .ok (arr x) := fun x => by
    have := setDimension3_rd (fl := fl) le_rfl x
    rw [this]
    congr 2
    ext i; fin_cases i <;> simp [pad3]
  have h4 : @cross3 ℝ (rounded fl) (arr v) (arr w) = .ok (arr (0 : E 3)) := by
    simp [arr3, cross3, mul_rd, sub_rd, e0, e1, e2, h.zero]
  simp only [Vec.cross, h3, new1D_rd, ok_bind, h4]

/-- A vector close to a multiple of `d` has a cosine close to 1 with `d`. -/
theorem cos_near {c c' d : E n} {τ : ℝ} (hd : d ≠ 0) (hτ : τ ≤ 2 / 100000) (k : ℝ) (hc : c = k • d) (hk : k ≠ 0)
    (he : ‖c' - c‖ ≤ τ * ‖c‖) : c' ≠ 0 ∧ 1 - 5 / 10000000000 ≤ |cosE c' d| := by
  have hd0 : 0 < ‖d‖ := norm_pos_iff.mpr hd
  have hc0 : 0 < ‖c‖ := by rw [hc, norm_smul]; exact mul_pos (norm_pos_iff.mpr hk) hd0
  have hτ0 : 0 ≤ τ := by
    by_contra hn
    have := norm_nonneg (c' - c)
    nlinarith
  have hne : c' ≠ 0 := by
    rintro rfl
    rw [zero_sub, norm_neg] at he
    nlinarith
  have hc'0 : 0 < ‖c'‖ := norm_pos_iff.mpr hne
  refine ⟨hne, ?_⟩
  obtain ⟨a, ha⟩ : ∃ a : ℝ, a = |(inner ℝ c' d : ℝ)| / ‖d‖ := ⟨_, rfl⟩
  have hcos : |cosE c' d| = a / ‖c'‖ := by
    rw [cosE, abs_div, abs_of_pos (mul_pos hc'0 hd0), ha]; field_simp
  rw [hcos, le_div_iff₀ hc'0]
  have hp : ‖c' - (inner ℝ c' d / ‖d‖ ^ 2) • d‖ ≤ τ * ‖c‖ := by
    have e : c' - (inner ℝ c' d / ‖d‖ ^ 2) • d = (c' - c) - (inner ℝ (c' - c) d / ‖d‖ ^ 2) • d := by
      have e2 : (inner ℝ c d : ℝ) = k * ‖d‖ ^ 2 := by rw [hc, real_inner_smul_left, real_inner_self_eq_norm_sq]
      rw [inner_sub_left, e2, sub_div, mul_div_cancel_right₀ _ (by positivity), sub_smul, ← hc]
      abel
    rw [e]
    exact (perp_part_le _ _).trans he
  have hpy : ‖c'‖ ^ 2 = a ^ 2 + ‖c' - (inner ℝ c' d / ‖d‖ ^ 2) • d‖ ^ 2 := by
    rw [norm_sub_sq_real, real_inner_smul_right, norm_smul, Real.norm_eq_abs, abs_div, abs_of_pos (by positivity : (0:ℝ) < ‖d‖ ^ 2), ha]
    rw [div_pow, sq_abs, mul_pow, div_pow, sq_abs]
    field_simp
    ring
  have ha0 : 0 ≤ a := by rw [ha]; positivity
  have h1 : ‖c'‖ ≤ (1 + τ) * ‖c‖ := by
    have := norm_add_le (c' - c) c
    rw [sub_add_cancel] at this; linarith
  have h2 : (1 - τ) * ‖c‖ ≤ ‖c'‖ := by
    have := norm_sub_norm_le c (c - c')
    rw [sub_sub_cancel, norm_sub_rev c c'] at this; linarith
  have h3 : ‖c' - (inner ℝ c' d / ‖d‖ ^ 2) • d‖ ^ 2 ≤ (τ * ‖c‖) ^ 2 := pow_le_pow_left₀ (norm_nonneg _) hp 2
  have h4 : (τ * ‖c‖) ^ 2 ≤ 41 / 100000000000 * ‖c'‖ ^ 2 := by
    have e1 : τ * ‖c‖ ≤ 2 / 100000 * ‖c‖ := mul_le_mul_of_nonneg_right hτ hc0.le
    have e2 : 99998 / 100000 * ‖c‖ ≤ ‖c'‖ := by nlinarith
    have e3 : (τ * ‖c‖) ^ 2 ≤ (2 / 100000 * ‖c‖) ^ 2 := pow_le_pow_left₀ (by positivity) e1 2
    have e4 : (99998 / 100000 * ‖c‖) ^ 2 ≤ ‖c'‖ ^ 2 := pow_le_pow_left₀ (by positivity) e2 2
    nlinarith
  apply le_of_sq_le_sq _ ha0
  have h5 : (1 - 41 / 100000000000) * ‖c'‖ ^ 2 ≤ a ^ 2 := by linarith
  have := sq_nonneg ‖c'‖
  nlinarith

theorem norm_dot_cross {v w d : E 3} {k : ℝ} (hk : crossE v w = k • d) :
    ‖(⟨inner ℝ v w, k * ‖d‖⟩ : ℂ)‖ = ‖v‖ * ‖w‖ := by
  have hcs : (k * ‖d‖) ^ 2 = ‖v‖ ^ 2 * ‖w‖ ^ 2 - (inner ℝ v w : ℝ) ^ 2 := by
    rw [← crossE_norm_sq, hk, norm_smul, mul_pow, mul_pow, Real.norm_eq_abs, sq_abs]
  rw [← Real.sqrt_sq (norm_nonneg (⟨inner ℝ v w, k * ‖d‖⟩ : ℂ)), ← Complex.normSq_eq_norm_sq, Complex.normSq_apply,
    ← Real.sqrt_sq (mul_nonneg (norm_nonneg v) (norm_nonneg w))]
  congr 1
  simp only
  linear_combination hcs

theorem angleSigned3d_exact {v w d : E 3} (hd : d ≠ 0) {k : ℝ} (hk : crossE v w = k • d) :
    Vec.angleSigned3d (arr v) (arr w) (arr d) = .ok (Complex.arg ⟨inner ℝ v w, k * ‖d‖⟩) := by
  have hd0 : 0 < ‖d‖ := norm_pos_iff.mpr hd
  have h1 : NearParallel (crossE v w) d := by
    by_cases hk0 : k = 0
    · left; rw [hk, hk0, zero_smul]
    · right; right
      have : |cosE (crossE v w) d| = 1 := by
        rw [hk, cosE, norm_smul, real_inner_smul_left, real_inner_self_eq_norm_sq, abs_div, abs_mul, abs_mul, abs_mul]
        simp only [Real.norm_eq_abs, abs_abs, abs_norm, abs_pow]
        have := abs_pos.mpr hk0
        field_simp
      rw [this]; norm_num
  have hy : (inner ℝ (crossE v w) d : ℝ) / ‖d‖ = k * ‖d‖ := by
    rw [hk, real_inner_smul_left, real_inner_self_eq_norm_sq]; field_simp
  rw [angleSigned3d_arr v w d hd h1, hy]

theorem sqrt2_le : Real.sqrt 2 ≤ 3 / 2 := by
  rw [show (3 / 2 : ℝ) = Real.sqrt ((3 / 2) ^ 2) by rw [Real.sqrt_sq]; norm_num]
  exact Real.sqrt_le_sqrt (by norm_num)

theorem angle3_const {u N C y S : ℝ} (hu0 : 0 ≤ u) (hu : 12 * u ≤ 4 / 10000000000) (hN : 0 ≤ N)
    (hC : C ≤ N + S) (hSN : S ≤ 6 * u * N) (hy : y ≤ 16 * u * C + S) : 8 * u * N + y ≤ 31 * u * N := by
  have h1 : C ≤ N + 6 * u * N := by linarith
  have h2 : 16 * u * C ≤ 16 * u * (N + 6 * u * N) := mul_le_mul_of_nonneg_left h1 (by linarith)
  have h3 : 16 * u * (6 * u * N) ≤ u * N := by
    have : 96 * u * (u * N) ≤ 1 * (u * N) := mul_le_mul_of_nonneg_right (by linarith) (by positivity)
    linarith
  nlinarith

/-- C114: `v.angle_signed_3d(w, direction_positive=d)` under rounding, for a direction exactly parallel to `v × w` and vectors
whose angle is not tiny (the sine is at least `3·10⁵ u`): the result differs from the exact signed angle by at most `66 u`,
up to full turns, and without them unless the angle is within `66 u` of `±π`. -/
theorem C114_angle_signed_3d (h : StdRounding u fl) (hu : 12 * u ≤ 4 / 10000000000) {v w d : E 3} (hd : d ≠ 0) {k : ℝ}
    (hk : crossE v w = k • d) (hk0 : k ≠ 0) (hsin : 300000 * u * (‖v‖ * ‖w‖) ≤ ‖crossE v w‖) :
    ∃ θ θ' : ℝ, Vec.angleSigned3d (arr v) (arr w) (arr d) = .ok θ ∧
      @Vec.angleSigned3d ℝ (rounded fl) (arr v) (arr w) (arr d) = .ok θ' ∧
      AngleNear (66 * u) θ' θ ∧ (|θ| + 66 * u < Real.pi → |θ' - θ| ≤ 66 * u) := by
  have hu0 := h.nonneg
  have hd0 : 0 < ‖d‖ := norm_pos_iff.mpr hd
  obtain ⟨c, hc, hce⟩ := cross_rd (n := 3) le_rfl h le_rfl (CRP.refl (eps u) v) (CRP.refl (eps u) w)
  rw [pad3_self, pad3_self] at hce
  obtain ⟨N, hN⟩ : ∃ N, N = ‖v‖ * ‖w‖ := ⟨_, rfl⟩
  rw [← hN] at hce hsin
  have hcr0 : crossE v w ≠ 0 := by rw [hk]; exact smul_ne_zero hk0 hd
  have hN0 : 0 < N := by
    have := norm_crossE_le v w
    have := norm_pos_iff.mpr hcr0
    rw [hN]; linarith
  have hS : ‖c - crossE v w‖ ≤ 6 * u * N := by
    have e1 := exp_eps_le2 h (k := 2 * 0 + 2) (by norm_num) (by linarith)
    have e0 := one_le_exp_eps h (k := 2 * 0 + 2) (by norm_num)
    have e2 : Real.sqrt 2 * (Real.exp ((2 * 0 + 2) * eps u) - 1) ≤ 3 / 2 * (4 * u) :=
      mul_le_mul sqrt2_le (by linarith) (by linarith) (by norm_num)
    exact hce.trans (mul_le_mul_of_nonneg_right (e2.trans (le_of_eq (by ring))) hN0.le)
  obtain ⟨hc0, hcos⟩ := cos_near (c := crossE v w) (c' := c) hd (τ := 2 / 100000) le_rfl k hk hk0 (by linarith)
  obtain ⟨b, hb, hb1, -⟩ := C77_is_parallel (n := 3) h (by push_cast; linarith) c d
  have hbt : b = true := hb1 (Or.inr (Or.inr hcos))
  subst hbt
  obtain ⟨e, he, ce⟩ := unit_rd h d hd
  obtain ⟨y', hy'⟩ : ∃ y', y' = @dotv ℝ (rounded fl) (arr c) (arr e) := ⟨_, rfl⟩
  obtain ⟨x', hx'⟩ : ∃ x', x' = @dotv ℝ (rounded fl) (arr v) (arr w) := ⟨_, rfl⟩
  refine ⟨_, fl (Complex.arg ⟨x', y'⟩), angleSigned3d_exact hd hk, ?_, ?_⟩
  · simp only [Vec.angleSigned3d, new1D_rd, ok_bind, length_arr, decide_true, Bool.and_true, Bool.not_true, Bool.false_eq_true,
      if_false, hc, hb, he, dot_rd, ← hy', ← hx', pure_ok, atan2_rd]
  have e1 := h.dotv_abs' le_rfl le_rfl (CRP.refl (eps u) v) (CRP.refl (eps u) w)
  have e2 := exp_eps_le2 h (k := 0 + 0 + 1 + (3 : ℕ)) (by norm_num) (by push_cast; linarith)
  rw [← hx', ← hN] at e1
  have e3 := h.dotv_abs' le_rfl (by positivity) (CRP.refl (eps u) c) ce
  have e4 := exp_eps_le2 h (k := 0 + ((3 : ℕ) + 5) / 2 + 1 + (3 : ℕ)) (by norm_num) (by push_cast; linarith)
  rw [← hy', norm_unit hd, mul_one] at e3
  push_cast at e1 e2 e3 e4
  have e5 : |x' - inner ℝ v w| ≤ 8 * u * N := e1.trans (mul_le_mul_of_nonneg_right (by linarith) hN0.le)
  have e6 : |y' - inner ℝ c (‖d‖⁻¹ • d)| ≤ 16 * u * ‖c‖ := e3.trans (mul_le_mul_of_nonneg_right (by linarith) (norm_nonneg _))
  have e7 : |inner ℝ c (‖d‖⁻¹ • d) - k * ‖d‖| ≤ ‖c - crossE v w‖ := by
    have : k * ‖d‖ = inner ℝ (crossE v w) (‖d‖⁻¹ • d) := by
      rw [hk, real_inner_smul_left, real_inner_smul_right, real_inner_self_eq_norm_sq]; field_simp
    rw [this, ← inner_sub_left]
    exact abs_inner_unit_le _ hd
  have e8 : |y' - k * ‖d‖| ≤ 16 * u * ‖c‖ + ‖c - crossE v w‖ := by
    have := abs_add_le (y' - inner ℝ c (‖d‖⁻¹ • d)) (inner ℝ c (‖d‖⁻¹ • d) - k * ‖d‖)
    rw [sub_add_sub_cancel] at this; linarith
  have e9 : ‖c‖ ≤ N + ‖c - crossE v w‖ := by
    have a1 := norm_add_le (c - crossE v w) (crossE v w)
    have a2 := norm_crossE_le v w
    rw [sub_add_cancel] at a1; rw [hN]; linarith
  have e10 := angle3_const hu0 hu hN0.le e9 hS e8
  have key := atan2_near h hN0 (by rw [hN]; exact norm_dot_cross hk) (ρ := 31 * u) (by linarith) (x' := x') (y' := y') (by linarith)
  rw [show 2 * (31 * u) + 4 * u = 66 * u by ring] at key
  exact key

/-- C114: exactly parallel vectors need no bound on the sine: for every non-zero direction the rounded result is `0` for vectors
of the same direction and the rounded `π` for opposite ones. -/
theorem C114_angle_signed_3d_parallel (h : StdRounding u fl) (hu : u ≤ 1 / 100) {v w d : E 3} (hd : d ≠ 0)
    (hv : v ≠ 0) (hw : w ≠ 0) (hc : crossE v w = 0) :
    @Vec.angleSigned3d ℝ (rounded fl) (arr v) (arr w) (arr d) = .ok (if 0 < (inner ℝ v w : ℝ) then 0 else fl Real.pi) := by
  have hu0 := h.nonneg
  have hcr := crossE_parallel_rd h hc
  have hv0 : 0 < ‖v‖ := norm_pos_iff.mpr hv
  have hw0 : 0 < ‖w‖ := norm_pos_iff.mpr hw
  obtain ⟨e, he, ce⟩ := unit_rd h d hd
  have hz : @Vec.isZero ℝ (rounded fl) (@Tol.default ℝ (rounded fl)) (arr (0 : E 3)) = .ok true := by
    rw [C73_is_zero h (by linarith)]; simp
  have hp : @Vec.isParallel ℝ (rounded fl) (@Tol.default ℝ (rounded fl)) (arr (0 : E 3)) (arr d) = .ok true := by
    simp only [Vec.isParallel, hz, ok_bind, if_true, pure_ok]
  have hy : @dotv ℝ (rounded fl) (arr (0 : E 3)) (arr e) = 0 := by
    have := h.dotv_abs' le_rfl le_rfl (CRP.refl (eps u) (0 : E 3)) (CRP.refl (eps u) e)
    simpa using this
  obtain ⟨x', hx'⟩ : ∃ x', x' = @dotv ℝ (rounded fl) (arr v) (arr w) := ⟨_, rfl⟩
  have hres : @Vec.angleSigned3d ℝ (rounded fl) (arr v) (arr w) (arr d) = .ok (fl (Complex.arg ⟨x', 0⟩)) := by
    simp only [Vec.angleSigned3d, new1D_rd, ok_bind, length_arr, decide_true, Bool.and_true, Bool.not_true, Bool.false_eq_true,
      if_false, hcr, hp, he, dot_rd, hy, ← hx', pure_ok, atan2_rd]
  rw [hres]
  have e1 := h.dotv_abs' le_rfl le_rfl (CRP.refl (eps u) v) (CRP.refl (eps u) w)
  have e2 := exp_eps_le2 h (k := 0 + 0 + 1 + (3 : ℕ)) (by norm_num) (by push_cast; linarith)
  rw [← hx'] at e1
  push_cast at e1 e2
  have hN0 : 0 < ‖v‖ * ‖w‖ := mul_pos hv0 hw0
  have e5 : |x' - inner ℝ v w| ≤ 8 * u * (‖v‖ * ‖w‖) := e1.trans (mul_le_mul_of_nonneg_right (by linarith) hN0.le)
  have hsq : (inner ℝ v w : ℝ) ^ 2 = (‖v‖ * ‖w‖) ^ 2 := by
    have := crossE_norm_sq v w
    rw [hc, norm_zero] at this
    rw [mul_pow]; linarith
  have e6 := abs_le.mp (e5.trans (show 8 * u * (‖v‖ * ‖w‖) ≤ 1 / 2 * (‖v‖ * ‖w‖) from mul_le_mul_of_nonneg_right (by linarith) hN0.le))
  rcases sq_eq_sq_iff_eq_or_eq_neg.mp hsq with h1 | h1
  · rw [if_pos (by rw [h1]; exact hN0)]
    have : (⟨x', 0⟩ : ℂ) = ((x' : ℝ) : ℂ) := rfl
    rw [this, Complex.arg_ofReal_of_nonneg (by linarith), h.zero]
  · rw [if_neg (by rw [h1]; linarith)]
    have : (⟨x', 0⟩ : ℂ) = ((x' : ℝ) : ℂ) := rfl
    rw [this, Complex.arg_ofReal_of_neg (by linarith)]

/-! ### `line.side_point` -/

/-- C114: `line.side_point(x)` under rounding, for a 2D line through `p` with direction `v`: the side is right whenever the
exact cross product of `x - p` and `v` exceeds `((1-u)^-3 - 1)` times the sum of the absolute values of its two products. -/
theorem C114_line_side_point (h : StdRounding u fl) (p v x : E 2)
    (hm : (((1 - u) ^ 3)⁻¹ - 1) * (|(x 0 - p 0) * v 1| + |(x 1 - p 1) * v 0|) < |(x 0 - p 0) * v 1 - (x 1 - p 1) * v 0|) :
    @Line.sidePoint ℝ (rounded fl) ⟨arr p, arr v⟩ (arr x) =
      .ok (if 0 < (x 0 - p 0) * v 1 - (x 1 - p 1) * v 0 then 1 else -1) := by
  obtain ⟨w, hw, hwi⟩ := fromPoints_rd fl p x
  have e : ∀ i j, RP (eps u) 2 (fl (w i * v j)) ((x i - p i) * v j) := fun i j => by
    have := h.step ((h.rp (x i - p i)).mul (RP.refl (eps u) (v j)))
    rw [← hwi i, show (1 + 0 + 1 : ℝ) = 2 by norm_num] at this
    exact this
  have e1 := diff_error_signed h (by norm_num) (e 0 1) (e 1 0)
  rw [exp_nat h (m := 3) (by norm_num)] at e1
  simp only [Line.sidePoint, hw, ok_bind, sideVector_rd, intSign_rd]
  have h1 := abs_le.mp e1
  by_cases hp : 0 < (x 0 - p 0) * v 1 - (x 1 - p 1) * v 0
  · rw [abs_of_pos hp] at hm
    rw [if_pos hp, if_pos (by linarith)]
  · rw [abs_of_nonpos (not_lt.mp hp)] at hm
    rw [if_neg hp, if_neg (by linarith), if_pos (by linarith)]

/-! ### Directions and points of lines -/

theorem basisVec_rd (i : Fin n) : @Vec.basisVec ℝ (rounded fl) n i = arr (EuclideanSpace.single i (1 : ℝ)) := by
  rw [← basisVec_eq]; rfl

/-- C114: `v.different_direction()` under rounding (default keywords, dimension at least two): the first or second coordinate
vector is returned, and its cosine with `v` is below `1 - 5e-10` in absolute value, so it is not parallel to `v`. -/
theorem C114_different_direction (h : StdRounding u fl) (hu : (2 * ((n + 2 : ℕ) : ℝ) + 6) * u ≤ 4 / 10000000000) {x : E (n + 2)} (hx : x ≠ 0) :
    ∃ i : Fin (n + 2), (i = 0 ∨ i = 1) ∧
      @Vec.differentDirection ℝ (rounded fl) (@Tol.default ℝ (rounded fl)) (arr x) = .ok (arr (EuclideanSpace.single i (1 : ℝ))) ∧
      |cosE x (EuclideanSpace.single i (1 : ℝ))| < 1 - 5 / 10000000000 := by
  have hu0 := h.nonneg
  have hxn : 0 < ‖x‖ := norm_pos_iff.mpr hx
  have hu1 : u ≤ 1 / 2 := by
    have : (0 : ℝ) ≤ ((n + 2 : ℕ) : ℝ) := by positivity
    nlinarith
  have hb0 : @Vec.basisVec ℝ (rounded fl) (n + 2) 0 = arr (EuclideanSpace.single (0 : Fin (n + 2)) (1 : ℝ)) :=
    basisVec_rd (0 : Fin (n + 2))
  have hb1 : @Vec.basisVec ℝ (rounded fl) (n + 2) 1 = arr (EuclideanSpace.single (1 : Fin (n + 2)) (1 : ℝ)) :=
    basisVec_rd (1 : Fin (n + 2))
  obtain ⟨b, hb, hp1, hp2⟩ := C77_is_parallel h hu x (EuclideanSpace.single 0 1)
  have hres : @Vec.differentDirection ℝ (rounded fl) (@Tol.default ℝ (rounded fl)) (arr x) =
      .ok (arr (EuclideanSpace.single (if b then (1 : Fin (n + 2)) else 0) (1 : ℝ))) := by
    have hz := C73_is_zero h hu1 x
    unfold Vec.differentDirection
    simp only [hz, hx, decide_false, ok_bind, Bool.false_eq_true, if_false]
    split
    · next h => have := congrArg List.length h; simp at this
    · simp only [length_arr, hb0, hb1, new1D_rd, ok_bind, hb, pure_ok]
      cases b <;> simp
  refine ⟨_, ?_, hres, ?_⟩
  · cases b <;> simp
  cases b with
  | false =>
    simp only [Bool.false_eq_true, if_false]
    by_contra hc
    have := hp1 (Or.inr (Or.inr (not_lt.mp hc)))
    exact absurd this (by simp)
  | true =>
    simp only [if_true]
    have h0 : 1 - 15 / 10000000000 ≤ |cosE x (EuclideanSpace.single 0 1)| := by
      rcases hp2 rfl with h1 | h1 | h1
      · exact absurd h1 hx
      · simp at h1
      · exact h1
    have hsq : x 0 ^ 2 + x 1 ^ 2 ≤ ‖x‖ ^ 2 := by
      rw [EuclideanSpace.norm_sq_eq]
      have h01 : ({0, 1} : Finset (Fin (n + 2))) ⊆ Finset.univ := Finset.subset_univ _
      have := Finset.sum_le_sum_of_subset_of_nonneg (f := fun i => ‖x i‖ ^ 2) h01 (fun i _ _ => by positivity)
      rw [Finset.sum_pair (by simp)] at this
      simpa [sq_abs] using this
    rw [cosE_single, abs_div, abs_norm, le_div_iff₀ hxn] at h0
    rw [cosE_single, abs_div, abs_norm, div_lt_iff₀ hxn]
    by_contra hc
    have h1 := not_lt.mp hc
    have e1 : (9 / 10 * ‖x‖) ^ 2 ≤ x 0 ^ 2 := by
      rw [← sq_abs (x 0)]; apply pow_le_pow_left₀ (by positivity); nlinarith
    have e2 : (9 / 10 * ‖x‖) ^ 2 ≤ x 1 ^ 2 := by
      rw [← sq_abs (x 1)]; apply pow_le_pow_left₀ (by positivity); nlinarith
    nlinarith [sq_pos_of_pos hxn]

/-- C114: `Line.from_points(a, b)` under rounding raises `ValueError` exactly if the points coincide; otherwise the line starts in
`a` and every coordinate of its direction is that of `b - a` up to one rounding. -/
theorem C114_line_from_points [NeZero n] (h : StdRounding u fl) (hu : u ≤ 1 / 2) (a b : E n) :
    (a = b → @Line.fromPoints ℝ (rounded fl) (arr a) (arr b) = .error (.valueError "The vector must not be the zero vector.")) ∧
    (a ≠ b → ∃ d : E n, @Line.fromPoints ℝ (rounded fl) (arr a) (arr b) = .ok ⟨arr a, arr d⟩ ∧
      ∀ i, d i = fl (b i - a i) ∧ |d i - (b i - a i)| ≤ u * |b i - a i|) := by
  obtain ⟨d, hd, hdi⟩ := fromPoints_rd fl a b
  have hz : d = 0 ↔ a = b := by
    constructor
    · intro h0
      ext i
      have := hdi i
      rw [h0] at this
      have := h.eq_zero.mp this.symm
      linarith
    · rintro rfl
      ext i
      rw [hdi, sub_self, h.zero]; rfl
  constructor
  · intro hab
    simp only [Line.fromPoints, hd, ok_bind, ((C73_constructors h hu a d).2 (hz.mpr hab)).1]
  · intro hab
    refine ⟨d, ?_, fun i => ⟨hdi i, by rw [hdi]; exact h.err _⟩⟩
    simp only [Line.fromPoints, hd, ok_bind, ((C73_constructors h hu a d).1 (fun h0 => hab (hz.mp h0))).1]

/-- C114: `line.to_point(t)` under rounding: coordinate by coordinate within
`u/(1-u) |p_i| + ((1-u)^-2 - 1) |t d_i|` of `p + t d`. -/
theorem C114_line_to_point (h : StdRounding u fl) (p d : E n) (t : ℝ) :
    ∃ q : E n, @Line.toPoint ℝ (rounded fl) ⟨arr p, arr d⟩ t = .ok (arr q) ∧
      ∀ i, |q i - (p + t • d) i| ≤ ((1 - u)⁻¹ - 1) * |p i| + (((1 - u) ^ 2)⁻¹ - 1) * |t * d i| := by
  obtain ⟨s, hs, hsi⟩ := smul_rd (fl := fl) t d
  obtain ⟨q, hq, hqi⟩ := vadd_rd (fl := fl) p s
  refine ⟨q, ?_, fun i => ?_⟩
  · simp only [Line.toPoint, hs, hq]
  have e1 := (h.rp (t * d i)).abs_sub_le
  have e2 := (h.rp (p i + s i)).abs_sub_le
  rw [one_mul] at e1 e2
  obtain ⟨C, hC⟩ : ∃ C, C = Real.exp (eps u) := ⟨_, rfl⟩
  have hC1 : 1 ≤ C := by rw [hC]; exact Real.one_le_exp h.eps_nonneg
  have hCC : ((1 - u) ^ 2)⁻¹ = C * C := by
    rw [← exp_nat h (k := 2) (by norm_num), hC, ← Real.exp_add]; congr 1; ring
  rw [hCC, ← exp_one_eps h, ← hC, hqi]
  rw [← hC] at e1 e2
  rw [← hsi] at e1
  have e3 : |p i + s i| ≤ |p i| + C * |t * d i| := by
    have a1 := abs_add_le (p i) (s i)
    have a2 := abs_add_le (s i - t * d i) (t * d i)
    rw [sub_add_cancel] at a2
    linarith
  rw [PiLp.add_apply, PiLp.smul_apply, smul_eq_mul]
  have e4 := abs_add_le (fl (p i + s i) - (p i + s i)) (s i - t * d i)
  rw [show fl (p i + s i) - (p i + s i) + (s i - t * d i) = fl (p i + s i) - (p i + t * d i) by ring] at e4
  have e5 := mul_le_mul_of_nonneg_left e3 (by linarith : (0:ℝ) ≤ C - 1)
  nlinarith

/-- C114: binary64 instances. -/
example : (∃ θ', @Vec.angleSigned ℝ (rounded (leftToRight (roundNearest 53))) (arr (vec2 1 (1 / 10))) (arr (vec2 1 0)) = .ok θ') ∧
    (∃ θ', @Vec.angleSigned3d ℝ (rounded (leftToRight (roundNearest 53))) (arr (vec3 1 0 0)) (arr (vec3 0 1 0)) (arr (vec3 0 0 2)) = .ok θ') ∧
    @Line.sidePoint ℝ (rounded (leftToRight (roundNearest 53))) ⟨arr (vec2 0 0), arr (vec2 1 1)⟩ (arr (vec2 1 0)) = .ok 1 ∧
    (∃ i : Fin 2, @Vec.differentDirection ℝ (rounded (leftToRight (roundNearest 53)))
      (@Tol.default ℝ (rounded (leftToRight (roundNearest 53)))) (arr (vec2 1 (1 / 10))) = .ok (arr (EuclideanSpace.single i (1 : ℝ)))) := by
  refine ⟨?_, ?_, ?_, ?_⟩
  · obtain ⟨-, h2⟩ := C114_angle_signed_closed_form std53 (by norm_num)
    obtain ⟨θ, θ', -, h3, -⟩ := h2 vec2_ne (w := vec2 1 0) (fun h => by simpa [vec2] using congrArg (fun v : E 2 => v 0) h)
    exact ⟨θ', h3⟩
  · have hc : crossE (vec3 1 0 0) (vec3 0 1 0) = (1 / 2 : ℝ) • vec3 0 0 2 := by
      ext i; fin_cases i <;> simp [crossE, vec3]
    have n1 : ‖vec3 1 0 0‖ = 1 := by rw [← sq_eq_sq₀ (norm_nonneg _) zero_le_one, norm_sq3]; simp [vec3]
    have n2 : ‖vec3 0 1 0‖ = 1 := by rw [← sq_eq_sq₀ (norm_nonneg _) zero_le_one, norm_sq3]; simp [vec3]
    have n3 : ‖vec3 0 0 2‖ = 2 := by rw [← sq_eq_sq₀ (norm_nonneg _) zero_le_two, norm_sq3]; simp [vec3]
    obtain ⟨θ, θ', -, h3, -⟩ := C114_angle_signed_3d std53 (by norm_num) (v := vec3 1 0 0) (w := vec3 0 1 0) (d := vec3 0 0 2)
      (fun h => by simpa [vec3] using congrArg (fun v : E 3 => v 2) h) hc (by norm_num)
      (by rw [hc, norm_smul, n1, n2, n3]; norm_num)
    exact ⟨θ', h3⟩
  · have := C114_line_side_point std53 (vec2 0 0) (vec2 1 1) (vec2 1 0) (by simp [vec2]; norm_num)
    rw [this]; simp [vec2]
  · obtain ⟨i, -, h1, -⟩ := C114_different_direction (n := 0) std53 (by norm_num) vec2_ne
    exact ⟨i, h1⟩

end SkSpatial
