import Verif.Props.Rounding16
import Verif.Props.CylinderFit
/-! # C111: intersections of infinite cylinders with lines under rounding -/

namespace SkSpatial
open StdRounding

variable {u : ℝ} {fl : Arith} {n : ℕ}

/-- A rounded value is the exact one times `1 + δ`, `|δ| ≤ u`. -/
theorem fl_delta (h : StdRounding u fl) (x : ℝ) : ∃ δ, |δ| ≤ u ∧ fl x = x * (1 + δ) := by
  by_cases hx : x = 0
  · refine ⟨0, by simpa using h.nonneg, ?_⟩
    have := h.err x
    rw [hx, abs_zero, mul_zero, sub_zero] at this
    rw [hx, abs_nonpos_iff.mp this, zero_mul]
  · refine ⟨(fl x - x) / x, ?_, ?_⟩
    · rw [abs_div, div_le_iff₀ (abs_pos.mpr hx)]; exact h.err x
    · field_simp; ring

theorem mul_near {a' a b' b α β A B : ℝ} (ha : |a' - a| ≤ α) (hb : |b' - b| ≤ β) (hA : |a| ≤ A) (hB : |b| ≤ B) :
    |a' * b' - a * b| ≤ α * B + A * β + α * β := by
  have hα : 0 ≤ α := (abs_nonneg _).trans ha
  have hA0 : 0 ≤ A := (abs_nonneg _).trans hA
  rw [show a' * b' - a * b = (a' - a) * b + a * (b' - b) + (a' - a) * (b' - b) by ring]
  refine (abs_add_three _ _ _).trans ?_
  rw [abs_mul, abs_mul, abs_mul]
  exact add_le_add (add_le_add (mul_le_mul ha hB (abs_nonneg _) hα) (mul_le_mul hA hb (abs_nonneg _) hA0))
    (mul_le_mul ha hb (abs_nonneg _) hα)

theorem sub_near {a' a b' b α β : ℝ} (ha : |a' - a| ≤ α) (hb : |b' - b| ≤ β) : |(a' - b') - (a - b)| ≤ α + β := by
  rw [show (a' - b') - (a - b) = (a' - a) - (b' - b) by ring]
  exact (abs_sub _ _).trans (add_le_add ha hb)

theorem add_near {a' a b' b α β : ℝ} (ha : |a' - a| ≤ α) (hb : |b' - b| ≤ β) : |(a' + b') - (a + b)| ≤ α + β := by
  rw [show (a' + b') - (a + b) = (a' - a) + (b' - b) by ring]
  exact (abs_add_le _ _).trans (add_le_add ha hb)

/-- Multiplying by `1 + δ`. -/
theorem delta_near {κ x' x α A δ : ℝ} (hκ : κ ≤ 1 / 10 ^ 5) (hx : |x' - x| ≤ α) (hA : |x| ≤ A) (hδ : |δ| ≤ κ) :
    |x' * (1 + δ) - x| ≤ 10001 / 10000 * α + κ * A := by
  have h0 : |(1 + δ) - 1| ≤ κ := by simpa using hδ
  have := mul_near hx h0 hA (by rw [abs_one])
  rw [mul_one, mul_one] at this
  have hα : 0 ≤ α := (abs_nonneg _).trans hx
  have := mul_le_mul_of_nonneg_left hκ hα
  norm_num at this
  linarith

/-- The rounded discriminant, in units of `4 s²`. -/
theorem cyl_disc {κ a b₀ b c₀ c δ₁ δ₂ δ₃ δ₄ W V : ℝ} (hκ0 : 0 ≤ κ) (hκ : κ ≤ 1 / 10 ^ 5) (hWV : W ^ 2 ≤ V)
    (hb0 : |b₀| ≤ W) (hc0 : |c₀| ≤ V) (ha : |a - 1| ≤ 120 * κ) (hb : |b - b₀| ≤ 112 * κ * W) (hc : |c - c₀| ≤ 120 * κ * V)
    (h1 : |δ₁| ≤ κ) (h2 : |δ₂| ≤ κ) (h3 : |δ₃| ≤ κ) (h4 : |δ₄| ≤ κ) :
    |(b * b * (1 + δ₁) - a * (1 + δ₂) * c * (1 + δ₃)) * (1 + δ₄) - (b₀ ^ 2 - c₀)| ≤ 500 * κ * V := by
  have hW : 0 ≤ W := (abs_nonneg _).trans hb0
  have hV : 0 ≤ V := (sq_nonneg _).trans hWV
  have hκW : κ * W ^ 2 ≤ κ * V := mul_le_mul_of_nonneg_left hWV hκ0
  have hκκ : κ * (κ * V) ≤ 1 / 10 ^ 5 * (κ * V) := mul_le_mul_of_nonneg_right hκ (by positivity)
  have hκV : 0 ≤ κ * V := by positivity
  norm_num at hκκ
  have e1 : |b * b - b₀ * b₀| ≤ 225 * (κ * V) := by
    refine (mul_near hb hb hb0 hb0).trans ?_
    have : 112 * κ * W * W + W * (112 * κ * W) + 112 * κ * W * (112 * κ * W) = (224 + 12544 * κ) * (κ * W ^ 2) := by ring
    rw [this]
    have : (224 + 12544 * κ) * (κ * W ^ 2) ≤ 225 * (κ * W ^ 2) := mul_le_mul_of_nonneg_right (by linarith) (by positivity)
    linarith
  have hbb : |b₀ * b₀| ≤ V := by
    rw [abs_mul, ← pow_two]; exact (pow_le_pow_left₀ (abs_nonneg _) hb0 2).trans hWV
  have e2 : |b * b * (1 + δ₁) - b₀ * b₀| ≤ 227 * (κ * V) := by
    have := delta_near hκ e1 hbb h1; linarith
  have e3 : |a * (1 + δ₂) - 1| ≤ 122 * κ := by
    have := delta_near hκ ha (by rw [abs_one]) h2; linarith
  have e4 : |a * (1 + δ₂) * c - 1 * c₀| ≤ 243 * (κ * V) := by
    refine (mul_near e3 hc (by rw [abs_one]) hc0).trans ?_
    have : 122 * κ * V + 1 * (120 * κ * V) + 122 * κ * (120 * κ * V) = 242 * (κ * V) + 14640 * (κ * (κ * V)) := by ring
    rw [this]; linarith
  rw [one_mul] at e4
  have e5 : |a * (1 + δ₂) * c * (1 + δ₃) - c₀| ≤ 245 * (κ * V) := by
    have := delta_near hκ e4 hc0 h3; linarith
  have e6 := sub_near e2 e5
  have hs : |b₀ * b₀ - c₀| ≤ 2 * V := by
    refine (abs_sub _ _).trans ?_; linarith
  have := delta_near hκ e6 hs h4
  rw [pow_two]
  linarith

/-- The rounded parameter of a point, in units of `1 / s`. -/
theorem cyl_root {κ a b₀ b R δ₁ δ₂ δ₃ δ₄ δ₅ V σ : ℝ} (hκ0 : 0 ≤ κ) (hκ : κ ≤ 1 / 10 ^ 5)
    (hb0 : |b₀| ≤ V) (ha : |a - 1| ≤ 120 * κ) (hb : |b - b₀| ≤ 112 * κ * V) (hR0 : 0 ≤ R) (hR : R ≤ 11 / 10 * V) (hσ : |σ| = 1)
    (h1 : |δ₁| ≤ κ) (h2 : |δ₂| ≤ κ) (h3 : |δ₃| ≤ κ) (h4 : |δ₄| ≤ κ) (h5 : |δ₅| ≤ κ) :
    0 < a * (1 + δ₄) ∧ |(-b + σ * (R * (1 + δ₁)) * (1 + δ₂)) * (1 + δ₃) / (a * (1 + δ₄)) * (1 + δ₅) - (-b₀ + σ * R)| ≤ 400 * κ * V := by
  have hV : 0 ≤ V := (abs_nonneg _).trans hb0
  have hκV : 0 ≤ κ * V := by positivity
  have e1 : |a * (1 + δ₄) - 1| ≤ 122 * κ := by
    have := delta_near hκ ha (by rw [abs_one]) h4; linarith
  obtain ⟨A, hA⟩ : ∃ A, A = a * (1 + δ₄) := ⟨_, rfl⟩
  rw [← hA] at e1 ⊢
  have hA1 : 99 / 100 ≤ A := by
    have := (abs_le.mp e1).1
    norm_num at hκ
    linarith
  refine ⟨by linarith, ?_⟩
  have hσR : |σ * R| ≤ 11 / 10 * V := by rw [abs_mul, hσ, one_mul, abs_of_nonneg hR0]; exact hR
  have e2 : |σ * (R * (1 + δ₁)) - σ * R| ≤ 11 / 10 * (κ * V) := by
    rw [show σ * (R * (1 + δ₁)) - σ * R = δ₁ * (σ * R) by ring, abs_mul]
    have := mul_le_mul h1 hσR (abs_nonneg _) hκ0
    linarith
  have e3 : |σ * (R * (1 + δ₁)) * (1 + δ₂) - σ * R| ≤ 23 / 10 * (κ * V) := by
    have := delta_near hκ e2 hσR h2; linarith
  have e4 : |-b - (-b₀)| ≤ 112 * κ * V := by rw [show -b - (-b₀) = -(b - b₀) by ring, abs_neg]; exact hb
  have e5 := add_near e4 e3
  have hs : |-b₀ + σ * R| ≤ 21 / 10 * V := by
    refine (abs_add_le _ _).trans ?_; rw [abs_neg]; linarith
  have e6 := delta_near hκ e5 hs h3
  obtain ⟨N, hN⟩ : ∃ N, N = (-b + σ * (R * (1 + δ₁)) * (1 + δ₂)) * (1 + δ₃) := ⟨_, rfl⟩
  obtain ⟨T, hT⟩ : ∃ T, T = -b₀ + σ * R := ⟨_, rfl⟩
  rw [← hN, ← hT] at e6
  rw [← hT] at hs
  rw [← hN, ← hT]
  have e7 : |N / A - T| ≤ 380 * (κ * V) := by
    rw [div_sub' (by linarith : A ≠ 0), abs_div, div_le_iff₀ (abs_pos.mpr (by linarith : A ≠ 0)), abs_of_pos (by linarith : 0 < A)]
    have : |N - A * T| ≤ |N - T| + |A - 1| * |T| := by
      rw [show N - A * T = (N - T) + (-(A - 1)) * T by ring]
      refine (abs_add_le _ _).trans ?_
      rw [abs_mul, abs_neg]
    have h6 := mul_le_mul e1 hs (abs_nonneg _) (by positivity : 0 ≤ 122 * κ)
    have h7 : 380 * (κ * V) * (99 / 100) ≤ 380 * (κ * V) * A := mul_le_mul_of_nonneg_left hA1 (by positivity)
    linarith
  have := delta_near hκ e7 hs h5
  linarith

/-- The component perpendicular to a rounded unit vector. -/
theorem perpC_rd (h : StdRounding u fl) (hu : u ≤ 1 / 10 ^ 5) {f z x v m y : E 3} {g : ℝ} (hf : ‖f‖ = 1) (hz : CRP (eps u) 4 z f)
    (hv : CRP (eps u) 4 v x) (hg : |g - inner ℝ x f| ≤ (Real.exp (12 * eps u) - 1) * ‖x‖) (hm : ∀ i, m i = fl (g * z i))
    (hy : ∀ i, y i = fl (v i - m i)) : ‖y - perpE f x‖ ≤ 50 * u * ‖x‖ := by
  have hu0 := h.nonneg
  have hε := h.eps_nonneg
  have hX := norm_nonneg x
  have hu1 : u ≤ 1 / 100000 := by norm_num at hu ⊢; exact hu
  have x12 : Real.exp (12 * eps u) - 1 ≤ 2 * 12 * u := exp_eps_le2 h (by norm_num) (by linarith)
  have x5 : Real.exp (5 * eps u) - 1 ≤ 2 * 5 * u := exp_eps_le2 h (by norm_num) (by linarith)
  have x4 : Real.exp (4 * eps u) - 1 ≤ 2 * 4 * u := exp_eps_le2 h (by norm_num) (by linarith)
  have x1 : Real.exp (1 * eps u) - 1 ≤ 2 * 1 * u := exp_eps_le2 h le_rfl (by linarith)
  have hg' : |g - inner ℝ x f| ≤ 24 * (u * ‖x‖) := by
    have := mul_le_mul_of_nonneg_right x12 hX; linarith
  have huX : u * ‖x‖ ≤ 1 / 100000 * ‖x‖ := mul_le_mul_of_nonneg_right hu1 hX
  have hi : |(inner ℝ x f : ℝ)| ≤ ‖x‖ := by
    have := abs_real_inner_le_norm x f; rwa [hf, mul_one] at this
  have hgx : |g| ≤ 101 / 100 * ‖x‖ := by
    have := abs_add_le (g - inner ℝ x f) (inner ℝ x f)
    rw [sub_add_cancel] at this; linarith
  have hgf : ‖g • f‖ = |g| := by rw [norm_smul, hf, mul_one, Real.norm_eq_abs]
  have hcm : CRP (eps u) 5 m (g • f) := by
    intro i
    rw [hm]
    have := h.step ((RP.refl (eps u) g).mul (hz i))
    rw [show (0 + 4 + 1 : ℝ) = 5 by norm_num] at this
    simpa using this
  have f1 : ‖m - g • f‖ ≤ 101 / 10 * (u * ‖x‖) := by
    refine (CRP.norm_sub_le hcm (by positivity)).trans ?_
    rw [hgf]
    have := mul_le_mul x5 hgx (abs_nonneg _) (by positivity)
    linarith
  have f2 : ‖v - x‖ ≤ 8 * (u * ‖x‖) := by
    refine (CRP.norm_sub_le hv (by positivity)).trans ?_
    have := mul_le_mul_of_nonneg_right x4 hX; linarith
  have g1 : ‖m‖ ≤ 102 / 100 * ‖x‖ := by
    have := norm_add_le (m - g • f) (g • f)
    rw [sub_add_cancel, hgf] at this; linarith
  have g2 : ‖v‖ ≤ 101 / 100 * ‖x‖ := by
    have := norm_add_le (v - x) x
    rw [sub_add_cancel] at this; linarith
  have hcy : CRP (eps u) 1 y (v - m) := fun i => by rw [hy]; exact h.rp _
  have f3 : ‖y - (v - m)‖ ≤ 45 / 10 * (u * ‖x‖) := by
    refine (CRP.norm_sub_le hcy (by positivity)).trans ?_
    have e1 := norm_sub_le v m
    have := mul_le_mul x1 (e1.trans (add_le_add g2 g1)) (norm_nonneg _) (by positivity)
    linarith [mul_nonneg hu0 hX]
  have f4 : ‖g • f - (inner ℝ x f : ℝ) • f‖ ≤ 24 * (u * ‖x‖) := by
    rw [← sub_smul, norm_smul, hf, mul_one, Real.norm_eq_abs]; exact hg'
  rw [perpE, show y - (x - (inner ℝ x f : ℝ) • f) = (y - (v - m)) + (v - x) - (m - g • f) - (g • f - (inner ℝ x f : ℝ) • f) by module]
  have t1 := norm_sub_le ((y - (v - m)) + (v - x) - (m - g • f)) (g • f - (inner ℝ x f : ℝ) • f)
  have t2 := norm_sub_le ((y - (v - m)) + (v - x)) (m - g • f)
  have t3 := norm_add_le (y - (v - m)) (v - x)
  linarith [mul_nonneg hu0 hX]


/-- The rounded squared length of a slightly wrong vector. -/
theorem normsq_rd (h : StdRounding u fl) (hu : u ≤ 1 / 10 ^ 5) {κ S : ℝ} {L y : E 3} {N : ℝ} (hS : 0 ≤ S) (hL : ‖L‖ ≤ S)
    (hκ0 : 0 ≤ κ) (hκ : κ ≤ 1 / 10 ^ 5) (huκ : u ≤ κ) (hy : ‖y - L‖ ≤ 50 * κ * S) (hN : RP (eps u) 3 N ‖y‖) :
    |fl (N * N) - ‖L‖ ^ 2| ≤ 115 * κ * S ^ 2 := by
  have hu0 := h.nonneg
  have hu1 : u ≤ 1 / 100000 := by norm_num at hu ⊢; exact hu
  have hκ1 : κ ≤ 1 / 100000 := by norm_num at hκ ⊢; exact hκ
  have x7 : Real.exp (7 * eps u) - 1 ≤ 2 * 7 * u := exp_eps_le2 h (by norm_num) (by linarith)
  have h1 : RP (eps u) 7 (fl (N * N)) (‖y‖ ^ 2) := by
    have := h.step (hN.mul hN)
    rw [← pow_two, show (3 + 3 + 1 : ℝ) = 7 by norm_num] at this
    simpa [pow_two] using this
  have h2 := h1.abs_sub_le
  rw [abs_of_nonneg (sq_nonneg ‖y‖)] at h2
  have e1 : |‖y‖ - ‖L‖| ≤ 50 * κ * S := (abs_norm_sub_norm_le y L).trans hy
  have hLa : |‖L‖| ≤ S := by rw [abs_of_nonneg (norm_nonneg L)]; exact hL
  have e2 := mul_near e1 e1 hLa hLa
  have hκκ : κ * (κ * S ^ 2) ≤ 1 / 100000 * (κ * S ^ 2) := mul_le_mul_of_nonneg_right hκ1 (by positivity)
  have e3 : |‖y‖ * ‖y‖ - ‖L‖ * ‖L‖| ≤ 1001 / 10 * (κ * S ^ 2) := by
    refine e2.trans ?_
    have : 50 * κ * S * S + S * (50 * κ * S) + 50 * κ * S * (50 * κ * S) = 100 * (κ * S ^ 2) + 2500 * (κ * (κ * S ^ 2)) := by ring
    rw [this]; linarith [mul_nonneg hκ0 (sq_nonneg S)]
  have hLL : ‖L‖ ^ 2 ≤ S ^ 2 := pow_le_pow_left₀ (norm_nonneg L) hL 2
  have hyy : ‖y‖ ^ 2 ≤ 101 / 100 * S ^ 2 := by
    have := (abs_le.mp e3).2
    have : κ * S ^ 2 ≤ 1 / 100000 * S ^ 2 := mul_le_mul_of_nonneg_right hκ1 (sq_nonneg S)
    nlinarith
  have h3 : |fl (N * N) - ‖y‖ ^ 2| ≤ 142 / 10 * (κ * S ^ 2) := by
    refine h2.trans ?_
    have h4 : Real.exp (7 * eps u) - 1 ≤ 14 * κ := by linarith
    have := mul_le_mul h4 hyy (sq_nonneg _) (by positivity)
    linarith [mul_nonneg hκ0 (sq_nonneg S)]
  have t := abs_add_le (fl (N * N) - ‖y‖ ^ 2) (‖y‖ ^ 2 - ‖L‖ ^ 2)
  rw [sub_add_sub_cancel] at t
  rw [← pow_two, ← pow_two] at e3
  linarith [mul_nonneg hκ0 (sq_nonneg S)]

/-- The rounded product of two slightly wrong vectors. -/
theorem inner_rd (h : StdRounding u fl) (hu : u ≤ 1 / 10 ^ 5) {κ s W : ℝ} {L M y z : E 3} {g : ℝ} (hs : 0 < s) (hs1 : s ≤ 1)
    (hL : ‖L‖ = s) (hM : ‖M‖ ≤ W) (huκ : u = κ * s) (hκ0 : 0 ≤ κ) (hκ : κ ≤ 1 / 10 ^ 5)
    (hy : ‖y - L‖ ≤ 50 * u) (hz : ‖z - M‖ ≤ 50 * u * W) (hg : |g - inner ℝ y z| ≤ (Real.exp (4 * eps u) - 1) * (‖y‖ * ‖z‖)) :
    |fl (2 * g) / (2 * s) - inner ℝ L M / s| ≤ 112 * κ * W := by
  have hu0 := h.nonneg
  have hu1 : u ≤ 1 / 100000 := by norm_num at hu ⊢; exact hu
  have hκ1 : κ ≤ 1 / 100000 := by norm_num at hκ ⊢; exact hκ
  have hW : 0 ≤ W := (norm_nonneg _).trans hM
  have x4 : Real.exp (4 * eps u) - 1 ≤ 2 * 4 * u := exp_eps_le2 h (by norm_num) (by linarith)
  have n1 : ‖y‖ ≤ 101 / 100 * s := by
    have := norm_add_le (y - L) L
    rw [sub_add_cancel, hL] at this
    have : κ * s ≤ 1 / 100000 * s := mul_le_mul_of_nonneg_right hκ1 hs.le
    rw [huκ] at hy
    linarith
  have n2 : ‖z‖ ≤ 101 / 100 * W := by
    have := norm_add_le (z - M) M
    rw [sub_add_cancel] at this
    have : u * W ≤ 1 / 100000 * W := mul_le_mul_of_nonneg_right hu1 hW
    linarith
  have huW : 0 ≤ u * W := by positivity
  have usW : u * (s * W) ≤ u * W := mul_le_mul_of_nonneg_left (by nlinarith) hu0
  have e1 : |(inner ℝ y z : ℝ) - inner ℝ L M| ≤ 101 * (u * W) := by
    have : (inner ℝ y z : ℝ) - inner ℝ L M = inner ℝ (y - L) z + inner ℝ L (z - M) := by
      rw [inner_sub_left, inner_sub_right]; ring
    rw [this]
    refine (abs_add_le _ _).trans ?_
    have i1 := (abs_real_inner_le_norm (y - L) z).trans (mul_le_mul hy n2 (norm_nonneg _) (by positivity))
    have i2 := (abs_real_inner_le_norm L (z - M)).trans (mul_le_mul hL.le hz (norm_nonneg _) hs.le)
    linarith
  have e2 : |g - inner ℝ y z| ≤ 82 / 10 * (u * W) := by
    refine hg.trans ?_
    have := mul_le_mul x4 (mul_le_mul n1 n2 (norm_nonneg _) (by positivity)) (by positivity) (by positivity)
    have : 2 * 4 * u * (101 / 100 * s * (101 / 100 * W)) = 8 * (10201 / 10000) * (u * (s * W)) := by ring
    linarith
  have e3 : |g - inner ℝ L M| ≤ 1092 / 10 * (u * W) := by
    have := abs_add_le (g - inner ℝ y z) ((inner ℝ y z : ℝ) - inner ℝ L M)
    rw [sub_add_sub_cancel] at this; linarith
  have hi : |(inner ℝ L M : ℝ)| ≤ W := by
    have := (abs_real_inner_le_norm L M).trans (mul_le_mul hL.le hM (norm_nonneg _) hs.le)
    nlinarith
  have e4 : |fl (2 * g) - 2 * g| ≤ u * (21 / 10 * W) := by
    refine (h.err _).trans (mul_le_mul_of_nonneg_left ?_ hu0)
    rw [abs_mul, abs_of_pos (by norm_num : (0 : ℝ) < 2)]
    have := abs_add_le (g - inner ℝ L M) (inner ℝ L M)
    rw [sub_add_cancel] at this
    have : u * W ≤ 1 / 100000 * W := mul_le_mul_of_nonneg_right hu1 hW
    linarith
  have e5 : |fl (2 * g) - 2 * inner ℝ L M| ≤ 2 * (112 * (u * W)) := by
    have := abs_add_le (fl (2 * g) - 2 * g) (2 * (g - inner ℝ L M))
    rw [abs_mul, abs_of_pos (by norm_num : (0 : ℝ) < 2), show fl (2 * g) - 2 * g + 2 * (g - inner ℝ L M) = fl (2 * g) - 2 * inner ℝ L M by ring]
      at this
    linarith
  rw [show fl (2 * g) / (2 * s) - inner ℝ L M / s = (fl (2 * g) - 2 * inner ℝ L M) / (2 * s) by field_simp, abs_div,
    abs_of_pos (by positivity : 0 < 2 * s), div_le_iff₀ (by positivity)]
  refine e5.trans (le_of_eq ?_)
  rw [huκ]; ring

/-- The rounded constant coefficient. -/
theorem cyl_c (h : StdRounding u fl) (hu : u ≤ 1 / 10 ^ 5) {W r : ℝ} {M z : E 3} {N : ℝ} (hM : ‖M‖ ≤ W)
    (hz : ‖z - M‖ ≤ 50 * u * W) (hN : RP (eps u) 3 N ‖z‖) :
    |fl (fl (N * N) - fl (r * r)) - (‖M‖ ^ 2 - r ^ 2)| ≤ 120 * u * (W ^ 2 + r ^ 2) := by
  have hu0 := h.nonneg
  have hu1 : u ≤ 1 / 100000 := by norm_num at hu ⊢; exact hu
  have hW : 0 ≤ W := (norm_nonneg _).trans hM
  have e1 := normsq_rd h hu hW hM hu0 hu le_rfl hz hN
  have e2 : |fl (r * r) - r ^ 2| ≤ u * r ^ 2 := by
    have := h.err (r * r); rw [abs_of_nonneg (mul_self_nonneg r)] at this; rw [pow_two]; exact this
  have hMM : |‖M‖ ^ 2| ≤ W ^ 2 := by rw [abs_of_nonneg (sq_nonneg _)]; exact pow_le_pow_left₀ (norm_nonneg M) hM 2
  have e3 := fl_sub_near h e1 e2 hMM (abs_of_nonneg (sq_nonneg r)).le
  refine e3.trans ?_
  have f1 : u * (u * W ^ 2) ≤ 1 / 100000 * (u * W ^ 2) := mul_le_mul_of_nonneg_right hu1 (by positivity)
  have f2 : u * (u * r ^ 2) ≤ 1 / 100000 * (u * r ^ 2) := mul_le_mul_of_nonneg_right hu1 (by positivity)
  have g1 : 0 ≤ u * W ^ 2 := by positivity
  have g2 : 0 ≤ u * r ^ 2 := by positivity
  linarith

/-! ### Exact geometry -/

theorem lineSet_unit' (p : E 3) {a : E 3} (ha : a ≠ 0) : lineSet p (‖a‖⁻¹ • a) = lineSet p a := by
  rw [lineSet_unit p ha]

theorem perp_lin (f : E 3) (x e : E 3) (t : ℝ) : perpE f (x + t • e) = perpE f x + t • perpE f e := by
  simp only [perpE, inner_add_left, real_inner_smul_left, smul_sub, add_smul, smul_smul]; abel

theorem norm_perp_le {f : E 3} (hf : ‖f‖ = 1) (x : E 3) : ‖perpE f x‖ ≤ ‖x‖ := by
  refine le_of_sq_le_sq ?_ (norm_nonneg x)
  have : ‖perpE f x‖ ^ 2 = ‖x‖ ^ 2 - (inner ℝ x f : ℝ) ^ 2 := by
    rw [perpE, norm_sub_sq_real, norm_smul, mul_pow, hf, real_inner_smul_right, Real.norm_eq_abs, sq_abs]; ring
  rw [this]; linarith [sq_nonneg (inner ℝ x f : ℝ)]

theorem norm_perp_sq {f : E 3} (hf : ‖f‖ = 1) (x : E 3) : ‖perpE f x‖ ^ 2 = ‖x‖ ^ 2 - (inner ℝ x f : ℝ) ^ 2 := by
  rw [perpE, norm_sub_sq_real, norm_smul, mul_pow, hf, real_inner_smul_right, Real.norm_eq_abs, sq_abs]; ring

theorem sine_eq {a d : E 3} (ha : a ≠ 0) (hd : d ≠ 0) : √(1 - cosE a d ^ 2) = ‖perpE (‖a‖⁻¹ • a) (‖d‖⁻¹ • d)‖ := by
  rw [← Real.sqrt_sq (norm_nonneg (perpE _ _)), norm_perp_sq (norm_unit ha), norm_unit hd]
  congr 1
  rw [cosE, real_inner_smul_left, real_inner_smul_right, real_inner_comm]
  have h1 : ‖a‖ ≠ 0 := norm_ne_zero_iff.mpr ha
  have h2 : ‖d‖ ≠ 0 := norm_ne_zero_iff.mpr hd
  field_simp

/-- The squared distance of the points of a line from the axis. -/
theorem axis_dist {p a q e : E 3} (ha : a ≠ 0) {s b₀ c₀ r : ℝ} (hs : 0 < s) (hse : s = ‖perpE (‖a‖⁻¹ • a) e‖)
    (hb : b₀ = inner ℝ (perpE (‖a‖⁻¹ • a) e) (perpE (‖a‖⁻¹ • a) (q - p)) / s) (hc : c₀ = ‖perpE (‖a‖⁻¹ • a) (q - p)‖ ^ 2 - r ^ 2) (t : ℝ) :
    Metric.infDist (q + t • e) (lineSet p a) ^ 2 = r ^ 2 + (s * t + b₀) ^ 2 - (b₀ ^ 2 - c₀) := by
  rw [← lineSet_unit' p ha, infDist_unit (norm_unit ha), add_sub_right_comm, perp_lin, norm_add_sq_real, norm_smul, mul_pow,
    real_inner_smul_right, Real.norm_eq_abs, sq_abs, ← hse, hc, real_inner_comm]
  have : (inner ℝ (perpE (‖a‖⁻¹ • a) e) (perpE (‖a‖⁻¹ • a) (q - p)) : ℝ) = s * b₀ := by rw [hb]; field_simp
  rw [this]; ring

theorem infCyl_iff {p a x : E 3} (ha : a ≠ 0) {r : ℝ} (hr : 0 < r) : x ∈ infCyl p a r ↔ Metric.infDist x (lineSet p a) = r := by
  rw [mem_infCyl ha hr, ← dist_footE_rad2 p ha, ← infDist_lineSet p ha, sq_eq_sq₀ Metric.infDist_nonneg hr.le]

/-- The distance of the line from the axis. -/
theorem axis_least {p a q e : E 3} {H X : ℝ} (hH : IsLeast (lineDistances p a q e) H) {d' : E 3} (hl : lineSet q e = lineSet q d')
    (f : ℝ → ℝ) (hf : ∀ t, Metric.infDist (q + t • d') (lineSet p a) ^ 2 = X + f t ^ 2) (hz : ∃ t, f t = 0) : H ^ 2 = X := by
  obtain ⟨⟨x, hx, y, hy, hxy⟩, hmin⟩ := hH
  rw [hl] at hy
  have hne : (lineSet p a).Nonempty := ⟨x, hx⟩
  apply le_antisymm
  · obtain ⟨t, ht⟩ := hz
    have h1 := hf t
    rw [ht] at h1
    have h2 : H ≤ Metric.infDist (q + t • d') (lineSet p a) := by
      rw [Metric.le_infDist hne]
      intro z hz
      rw [dist_comm]
      refine hmin ⟨z, hz, q + t • d', ?_, rfl⟩
      rw [hl]; exact ⟨t, rfl⟩
    have h0 : 0 ≤ H := by rw [hxy]; exact dist_nonneg
    have := pow_le_pow_left₀ h0 h2 2
    rw [h1] at this; simpa using this
  · obtain ⟨t, rfl⟩ := hy
    have h2 : Metric.infDist (q + t • d') (lineSet p a) ≤ H := by
      rw [hxy, dist_comm]; exact Metric.infDist_le_dist_of_mem hx
    have := pow_le_pow_left₀ Metric.infDist_nonneg h2 2
    rw [hf] at this
    linarith [sq_nonneg (f t)]

/-- Solving the rounded quadratic equation. -/
theorem cyl_solve (h : StdRounding u fl) {κ s a b c b₀ c₀ W r : ℝ} (hs : 0 < s) (hs1 : s ≤ 1) (huκ : u = κ * s) (hκ0 : 0 ≤ κ)
    (hκ : κ ≤ 1 / 10 ^ 5) (hW : 0 ≤ W) (hr : 0 ≤ r) (hb0 : |b₀| ≤ W) (hc0 : |c₀| ≤ W ^ 2 + r ^ 2) (hE : b₀ ^ 2 - c₀ ≤ r ^ 2)
    (ha : |a - s ^ 2| ≤ 120 * κ * s ^ 2) (hb : |b / (2 * s) - b₀| ≤ 112 * κ * W) (hc : |c - c₀| ≤ 120 * u * (W ^ 2 + r ^ 2)) :
    a ≠ 0 ∧ ∃ D, fl (fl (b * b) - fl (fl (4 * a) * c)) = 4 * s ^ 2 * D ∧ |D - (b₀ ^ 2 - c₀)| ≤ 500 * κ * (W ^ 2 + r ^ 2) ∧
      (0 ≤ D → √D ≤ 11 / 10 * (W + r) ∧ ∀ σ : ℝ, |σ| = 1 →
        |s * fl (fl (-b + fl (σ * fl (√(4 * s ^ 2 * D)))) / fl (2 * a)) - (-b₀ + σ * √D)| ≤ 400 * κ * (W + r)) := by
  have hs2 : 0 < s ^ 2 := by positivity
  have hκu : u ≤ κ := by rw [huκ]; nlinarith
  obtain ⟨a₁, ha₁⟩ : ∃ x, x = a / s ^ 2 := ⟨_, rfl⟩
  obtain ⟨b₁, hb₁⟩ : ∃ x, x = b / (2 * s) := ⟨_, rfl⟩
  have ea : a = s ^ 2 * a₁ := by rw [ha₁]; field_simp
  have eb : b = 2 * s * b₁ := by rw [hb₁]; field_simp
  rw [← hb₁] at hb
  have ha1 : |a₁ - 1| ≤ 120 * κ := by
    rw [ha₁, div_sub_one hs2.ne', abs_div, abs_of_pos hs2, div_le_iff₀ hs2]; exact ha
  have hV : 0 ≤ W ^ 2 + r ^ 2 := by positivity
  have hc' : |c - c₀| ≤ 120 * κ * (W ^ 2 + r ^ 2) := hc.trans (mul_le_mul_of_nonneg_right (by linarith) hV)
  have hapos : 0 < a := by
    have := (abs_le.mp ha1).1
    norm_num at hκ
    rw [ea]; exact mul_pos hs2 (by linarith)
  refine ⟨hapos.ne', ?_⟩
  obtain ⟨δ₁, d1, f1⟩ := fl_delta h (b * b)
  obtain ⟨δ₂, d2, f2⟩ := fl_delta h (4 * a)
  obtain ⟨δ₃, d3, f3⟩ := fl_delta h (fl (4 * a) * c)
  obtain ⟨δ₄, d4, f4⟩ := fl_delta h (fl (b * b) - fl (fl (4 * a) * c))
  obtain ⟨D, hD⟩ : ∃ x, x = (b₁ * b₁ * (1 + δ₁) - a₁ * (1 + δ₂) * c * (1 + δ₃)) * (1 + δ₄) := ⟨_, rfl⟩
  have hWV : W ^ 2 ≤ W ^ 2 + r ^ 2 := by linarith [sq_nonneg r]
  have eD := cyl_disc hκ0 hκ hWV hb0 hc0 ha1 hb hc' (d1.trans hκu) (d2.trans hκu) (d3.trans hκu) (d4.trans hκu)
  rw [← hD] at eD
  refine ⟨D, ?_, eD, fun h0 => ?_⟩
  · rw [f4, f3, f2, f1, hD, ea, eb]; ring
  · have hR : √D ≤ 11 / 10 * (W + r) := by
      refine root_le (b := 500 * κ) hr hW (by norm_num at hκ; linarith) ?_
      have := (abs_le.mp eD).2
      linarith
    refine ⟨hR, fun σ hσ => ?_⟩
    have hroot : √(4 * s ^ 2 * D) = 2 * s * √D := by
      rw [show 4 * s ^ 2 * D = (2 * s) ^ 2 * D by ring, Real.sqrt_mul (sq_nonneg _), Real.sqrt_sq (by positivity)]
    rw [hroot]
    obtain ⟨ε₁, g1, k1⟩ := fl_delta h (2 * s * √D)
    obtain ⟨ε₂, g2, k2⟩ := fl_delta h (σ * fl (2 * s * √D))
    obtain ⟨ε₃, g3, k3⟩ := fl_delta h (-b + fl (σ * fl (2 * s * √D)))
    obtain ⟨ε₄, g4, k4⟩ := fl_delta h (2 * a)
    obtain ⟨ε₅, g5, k5⟩ := fl_delta h (fl (-b + fl (σ * fl (2 * s * √D))) / fl (2 * a))
    have hbV : |b₀| ≤ W + r := by linarith
    have hbV' : |b₁ - b₀| ≤ 112 * κ * (W + r) := hb.trans (mul_le_mul_of_nonneg_left (by linarith) (by positivity))
    obtain ⟨hpos, key⟩ := cyl_root hκ0 hκ hbV ha1 hbV' (Real.sqrt_nonneg D) hR hσ (g1.trans hκu) (g2.trans hκu) (g3.trans hκu) (g4.trans hκu)
      (g5.trans hκu)
    refine le_of_eq_of_le ?_ key
    congr 2
    rw [k5, k3, k2, k1, k4, ea, eb]
    have h4 : a₁ * (1 + ε₄) ≠ 0 := hpos.ne'
    have : a₁ ≠ 0 := fun h => h4 (by rw [h, zero_mul])
    have : 1 + ε₄ ≠ 0 := fun h => h4 (by rw [h, mul_zero])
    field_simp

/-- A point of the line with a computed parameter. -/
theorem line_pt_rd (h : StdRounding u fl) (hu : u ≤ 1 / 10 ^ 5) {q e z : E 3} (he : ‖e‖ = 1) (hz : CRP (eps u) 4 z e) (t : ℝ) :
    ∃ y : E 3, (do let a ← @vadd ℝ (rounded fl) (arr q) (@smul ℝ (rounded fl) t (arr z))
                   @new1D ℝ (rounded fl) a) = .ok (arr y) ∧
      ‖y - (q + t • e)‖ ≤ u * (2 * ‖q‖ + 13 * |t|) := by
  have hu0 := h.nonneg
  have hu1 : u ≤ 1 / 100000 := by norm_num at hu ⊢; exact hu
  obtain ⟨m, hm, hmi⟩ := smul_rd (fl := fl) t z
  obtain ⟨y, hy, hyi⟩ := vadd_rd (fl := fl) q m
  refine ⟨y, by rw [hm, hy, ok_bind, new1D_rd], ?_⟩
  have hcm : CRP (eps u) 5 m (t • e) := by
    intro i
    rw [hmi]
    have := h.step ((RP.refl (eps u) t).mul (hz i))
    rw [show (0 + 4 + 1 : ℝ) = 5 by norm_num] at this
    simpa using this
  have x5 : Real.exp (5 * eps u) - 1 ≤ 2 * 5 * u := exp_eps_le2 h (by norm_num) (by linarith)
  have x1 : Real.exp (1 * eps u) - 1 ≤ 2 * 1 * u := exp_eps_le2 h le_rfl (by linarith)
  have hte : ‖t • e‖ = |t| := by rw [norm_smul, he, mul_one, Real.norm_eq_abs]
  have hε := h.eps_nonneg
  have ht0 := abs_nonneg t
  have hut : u * |t| ≤ 1 / 100000 * |t| := mul_le_mul_of_nonneg_right hu1 ht0
  have f1 : ‖m - t • e‖ ≤ 10 * (u * |t|) := by
    refine (CRP.norm_sub_le hcm (by positivity)).trans ?_
    rw [hte]
    have := mul_le_mul_of_nonneg_right x5 ht0
    linarith
  have f0 : ‖m‖ ≤ 11 / 10 * |t| := by
    have := norm_add_le (m - t • e) (t • e)
    rw [sub_add_cancel, hte] at this
    linarith
  have hcy : CRP (eps u) 1 y (q + m) := fun i => by rw [hyi]; exact h.rp _
  have f2 : ‖y - (q + m)‖ ≤ 2 * u * (‖q‖ + 11 / 10 * |t|) := by
    refine (CRP.norm_sub_le hcy (by positivity)).trans ?_
    have e1 := mul_le_mul_of_nonneg_right x1 (norm_nonneg (q + m))
    have e2 := mul_le_mul_of_nonneg_left ((norm_add_le q m).trans (add_le_add le_rfl f0)) (by positivity : 0 ≤ 2 * u)
    linarith
  have e5 : y - (q + t • e) = (y - (q + m)) + (m - t • e) := by module
  rw [e5]
  refine (norm_add_le _ _).trans ?_
  linarith [mul_nonneg hu0 ht0]

theorem cyl_const {W r ρ s : ℝ} (hW : 0 ≤ W) (hs : 0 < s) (hρ : 0 < ρ) (hρr : ρ ≤ r) :
    (W + r) / s ≤ 4 / 3 * ((W ^ 2 + r ^ 2) / (s * ρ)) := by
  have h1 : W + r ≤ 4 / 3 * ((W ^ 2 + r ^ 2) / ρ) := by
    rw [← mul_div_assoc, le_div_iff₀ hρ]
    have h2 : (W + r) * ρ ≤ (W + r) * r := mul_le_mul_of_nonneg_left hρr (by linarith)
    nlinarith [sq_nonneg (W - r), sq_nonneg W, sq_nonneg r]
  have := div_le_div_of_nonneg_right h1 hs.le
  refine this.trans (le_of_eq ?_)
  field_simp

/-- The exact points, given the parameter. -/
theorem cyl_set {p a q d : E 3} (ha : a ≠ 0) (hd : d ≠ 0) {s b₀ c₀ r : ℝ} (hr : 0 < r) (hs : 0 < s)
    (hse : s = ‖perpE (‖a‖⁻¹ • a) (‖d‖⁻¹ • d)‖)
    (hb : b₀ = inner ℝ (perpE (‖a‖⁻¹ • a) (‖d‖⁻¹ • d)) (perpE (‖a‖⁻¹ • a) (q - p)) / s)
    (hc : c₀ = ‖perpE (‖a‖⁻¹ • a) (q - p)‖ ^ 2 - r ^ 2) (h0 : 0 ≤ b₀ ^ 2 - c₀) :
    infCyl p a r ∩ lineSet q d =
      {q + ((-b₀ + (-1) * √(b₀ ^ 2 - c₀)) / s) • (‖d‖⁻¹ • d), q + ((-b₀ + 1 * √(b₀ ^ 2 - c₀)) / s) • (‖d‖⁻¹ • d)} := by
  have hmem : ∀ t : ℝ, q + t • (‖d‖⁻¹ • d) ∈ infCyl p a r ↔ (s * t + b₀) ^ 2 = b₀ ^ 2 - c₀ := by
    intro t
    rw [infCyl_iff ha hr, ← sq_eq_sq₀ Metric.infDist_nonneg hr.le, axis_dist ha hs hse hb hc]
    constructor <;> intro h <;> linarith
  have hq : √(b₀ ^ 2 - c₀) ^ 2 = b₀ ^ 2 - c₀ := Real.sq_sqrt h0
  ext z
  rw [lineSet_unit q hd, Set.mem_inter_iff, Set.mem_insert_iff, Set.mem_singleton_iff]
  constructor
  · rintro ⟨hz, t, rfl⟩
    rw [hmem, ← hq] at hz
    rcases sq_eq_sq_iff_eq_or_eq_neg.mp hz with h1 | h1
    · right; congr 2; rw [eq_div_iff hs.ne']; linarith
    · left; congr 2; rw [eq_div_iff hs.ne']; linarith
  · rintro (rfl | rfl)
    · refine ⟨(hmem _).mpr ?_, _, rfl⟩
      rw [mul_div_cancel₀ _ hs.ne']
      linear_combination hq
    · refine ⟨(hmem _).mpr ?_, _, rfl⟩
      rw [mul_div_cancel₀ _ hs.ne']
      linear_combination hq

theorem cyl_axis_lip {p a q e : E 3} (ha : a ≠ 0) (t t' : ℝ) :
    |Metric.infDist (q + t • e) (lineSet p a) - Metric.infDist (q + t' • e) (lineSet p a)| ≤
      |t - t'| * ‖perpE (‖a‖⁻¹ • a) e‖ := by
  rw [← lineSet_unit' p ha, infDist_unit (norm_unit ha), infDist_unit (norm_unit ha)]
  refine (abs_norm_sub_norm_le _ _).trans ?_
  rw [← perpE_sub, show q + t • e - p - (q + t' • e - p) = (0 : E 3) + (t - t') • e by module, perp_lin]
  rw [show perpE (‖a‖⁻¹ • a) 0 = 0 by simp [perpE], zero_add, norm_smul, Real.norm_eq_abs]

/-- The coefficients of the rounded quadratic equation. -/
theorem cyl_calc (h : StdRounding u fl) (hu : u ≤ 1 / 10 ^ 5) {p a q d : E 3} (ha : a ≠ 0) (hd : d ≠ 0) (r : ℝ) (nd : Option Int) :
    ∃ (z yL yP : E 3) (N M g : ℝ), CRP (eps u) 4 z (‖d‖⁻¹ • d) ∧
      ‖yL - perpE (‖a‖⁻¹ • a) (‖d‖⁻¹ • d)‖ ≤ 50 * u ∧ ‖yP - perpE (‖a‖⁻¹ • a) (q - p)‖ ≤ 50 * u * ‖q - p‖ ∧
      RP (eps u) 3 N ‖yL‖ ∧ RP (eps u) 3 M ‖yP‖ ∧ |g - inner ℝ yL yP| ≤ (Real.exp (4 * eps u) - 1) * (‖yL‖ * ‖yP‖) ∧
      @Cylinder.intersectLine ℝ (rounded fl) ⟨arr p, arr a, r⟩ ⟨arr q, arr d⟩ nd true = (do
        let X ← (match @solveQuadratic ℝ (rounded fl) (fl (N * N)) (fl (2 * g)) (fl (fl (M * M) - fl (r * r))) nd with
          | .ok x => .ok x
          | .error (.valueError _) => .error (.valueError "The line does not intersect the cylinder.")
          | .error e => .error e)
        let pa ← @vadd ℝ (rounded fl) (arr q) (@smul ℝ (rounded fl) X.1 (arr z))
        let pb ← @vadd ℝ (rounded fl) (arr q) (@smul ℝ (rounded fl) X.2 (arr z))
        let pa ← @new1D ℝ (rounded fl) pa
        let pb ← @new1D ℝ (rounded fl) pb
        pure (pa, pb)) := by
  have hu0 := h.nonneg
  have hε := h.eps_nonneg
  obtain ⟨zc, hzc, cc⟩ := unit_rd h a ha
  obtain ⟨z, hz, cz⟩ := unit_rd h d hd
  rw [show (((3 : ℕ) : ℝ) + 5) / 2 = 4 by norm_num] at cc cz
  obtain ⟨v, hv, cv⟩ := from_crp h p q
  have cv4 : CRP (eps u) 4 v (q - p) := fun i => (cv i).mono hε (by norm_num)
  obtain ⟨g1, hg1⟩ : ∃ g, g = @dotv ℝ (rounded fl) (arr z) (arr zc) := ⟨_, rfl⟩
  obtain ⟨g2, hg2⟩ : ∃ g, g = @dotv ℝ (rounded fl) (arr v) (arr zc) := ⟨_, rfl⟩
  have e1 := h.dotv_abs' (by norm_num) (by norm_num) cz cc
  have e2 := h.dotv_abs' (by norm_num) (by norm_num) cv4 cc
  rw [← hg1, norm_unit ha, norm_unit hd, mul_one, show (4 + 4 + 1 + (3 : ℕ) : ℝ) = 12 by norm_num] at e1
  rw [← hg2, norm_unit ha, mul_one, show (4 + 4 + 1 + (3 : ℕ) : ℝ) = 12 by norm_num] at e2
  obtain ⟨m1, hm1, hm1i⟩ := smul_rd (fl := fl) g1 zc
  obtain ⟨m2, hm2, hm2i⟩ := smul_rd (fl := fl) g2 zc
  obtain ⟨yL, hyL, hyLi⟩ := vsub_rd (fl := fl) z m1
  obtain ⟨yP, hyP, hyPi⟩ := vsub_rd (fl := fl) v m2
  have p1 := perpC_rd h hu (norm_unit ha) cc cz (by rw [norm_unit hd]; exact e1) hm1i hyLi
  have p2 := perpC_rd h hu (norm_unit ha) cc cv4 e2 hm2i hyPi
  rw [norm_unit hd, mul_one] at p1
  have rN := h.normv_rp le_rfl (CRP.refl (eps u) yL)
  have rM := h.normv_rp le_rfl (CRP.refl (eps u) yP)
  have eg := h.dotv_abs' le_rfl le_rfl (CRP.refl (eps u) yL) (CRP.refl (eps u) yP)
  rw [show (0 + (((3 : ℕ) : ℝ) + 3) / 2) = 3 by norm_num] at rN rM
  rw [show (0 + 0 + 1 + (3 : ℕ) : ℝ) = 4 by norm_num] at eg
  refine ⟨z, yL, yP, _, _, _, cz, p1, p2, rN, rM, eg, ?_⟩
  simp only [Cylinder.intersectLine, Line.dimension, length_arr, ne_eq, not_true_eq_false, if_false, if_true, Cylinder.intersectInfinite, wrapped_rd,     hzc, hz, hv, ok_bind, dot_rd, ← hg1, ← hg2, hm1, hm2, hyL, hyP, Vec.norm, sq_rd, two_rd, mul_rd, sub_rd]
  generalize @solveQuadratic ℝ (rounded fl) _ _ _ nd = Q
  rcases Q with e | x
  · cases e <;> rfl
  · rfl

/-- `solveQuadratic` under rounding. -/
theorem solve_rd {A B C : ℝ} {nd : Option Int} (hnd : nd = none ∨ nd = some 0) (hA : A ≠ 0) {D : ℝ}
    (hD : D = fl (fl (B * B) - fl (fl (4 * A) * C))) :
    (D < 0 → ∃ msg, @solveQuadratic ℝ (rounded fl) A B C nd = .error (.valueError msg)) ∧
    (0 ≤ D → @solveQuadratic ℝ (rounded fl) A B C nd =
      .ok (fl (fl (-B + fl ((-1) * fl (√D))) / fl (2 * A)), fl (fl (-B + fl (1 * fl (√D))) / fl (2 * A)))) := by
  have h4 : ((4 : ℤ) : ℝ) = 4 := by norm_num
  have hs : @solveQuadratic ℝ (rounded fl) A B C nd = @solveQuadratic ℝ (rounded fl) A B C none := by
    rcases hnd with rfl | rfl <;> rfl
  rw [hs]
  constructor
  · intro h0
    simp only [solveQuadratic, id, eq_rd, zero_rd, hA, decide_false, Bool.false_eq_true, if_false, sq_rd, sub_rd, mul_rd, ofInt_rd, h4,
      ← hD, lt_rd, h0, decide_true, if_true]
    exact ⟨_, rfl⟩
  · intro h0
    simp only [solveQuadratic, id, eq_rd, zero_rd, hA, decide_false, Bool.false_eq_true, if_false, sq_rd, sub_rd, mul_rd, ofInt_rd, h4,
      ← hD, lt_rd, not_lt.mpr h0, mathSqrt, sqrt_rd, ok_bind, pure_ok, neg_rd, add_rd, div_rd, two_rd, Int.cast_neg, Int.cast_one]

/-- What `cylinder.intersect_line(line)` computes under rounding: `s` is the sine of the angle between axis and line, `h² = r² - (b₀² - c₀)`
for the distance `h` of the line from the axis. -/
theorem cyl_core (h : StdRounding u fl) {p a q d : E 3} (ha : a ≠ 0) (hd : d ≠ 0) {s κ r b₀ c₀ W : ℝ} (hr : 0 < r)
    (hse : s = ‖perpE (‖a‖⁻¹ • a) (‖d‖⁻¹ • d)‖) (hs : 0 < s) (huκ : u = κ * s) (hκ : κ ≤ 1 / 10 ^ 5)
    (hb : b₀ = inner ℝ (perpE (‖a‖⁻¹ • a) (‖d‖⁻¹ • d)) (perpE (‖a‖⁻¹ • a) (q - p)) / s)
    (hc : c₀ = ‖perpE (‖a‖⁻¹ • a) (q - p)‖ ^ 2 - r ^ 2) (hW : W = ‖q - p‖)
    {nd : Option Int} (hnd : nd = none ∨ nd = some 0) :
    ∃ D : ℝ, |D - (b₀ ^ 2 - c₀)| ≤ 500 * κ * (W ^ 2 + r ^ 2) ∧
      (D < 0 → @Cylinder.intersectLine ℝ (rounded fl) ⟨arr p, arr a, r⟩ ⟨arr q, arr d⟩ nd true =
        .error (.valueError "The line does not intersect the cylinder.")) ∧
      (0 ≤ D → √D ≤ 11 / 10 * (W + r) ∧ ∃ (y y' : E 3) (T T' : ℝ),
        @Cylinder.intersectLine ℝ (rounded fl) ⟨arr p, arr a, r⟩ ⟨arr q, arr d⟩ nd true = .ok (arr y, arr y') ∧
        ‖y - (q + (T / s) • (‖d‖⁻¹ • d))‖ ≤ u * (2 * ‖q‖ + 13 * |T / s|) ∧
        ‖y' - (q + (T' / s) • (‖d‖⁻¹ • d))‖ ≤ u * (2 * ‖q‖ + 13 * |T' / s|) ∧
        |T - (-b₀ + (-1) * √D)| ≤ 400 * κ * (W + r) ∧ |T' - (-b₀ + 1 * √D)| ≤ 400 * κ * (W + r)) := by
  have hu0 := h.nonneg
  have hs1 : s ≤ 1 := by rw [hse]; exact (norm_perp_le (norm_unit ha) _).trans (norm_unit hd).le
  have hκ0 : 0 ≤ κ := by
    by_contra hneg
    have : κ * s < 0 := mul_neg_of_neg_of_pos (not_le.mp hneg) hs
    linarith
  have hκu : u ≤ κ := by rw [huκ]; nlinarith
  have hu : u ≤ 1 / 10 ^ 5 := hκu.trans hκ
  obtain ⟨z, yL, yP, N, M, g, cz, eL, eP, rN, rM, eg, hcomp⟩ := cyl_calc h hu (p := p) (q := q) ha hd r nd
  rw [← hW] at eP
  have hPW : ‖perpE (‖a‖⁻¹ • a) (q - p)‖ ≤ W := by rw [hW]; exact norm_perp_le (norm_unit ha) _
  have hW0 : 0 ≤ W := by rw [hW]; exact norm_nonneg _
  have qa : |fl (N * N) - s ^ 2| ≤ 120 * κ * s ^ 2 := by
    have := normsq_rd h hu hs.le hse.ge hκ0 hκ hκu (by rw [mul_assoc, ← huκ]; exact eL) rN
    rw [← hse] at this
    refine this.trans (mul_le_mul_of_nonneg_right (by linarith) (sq_nonneg s))
  have qb := inner_rd h hu hs hs1 hse.symm hPW huκ hκ0 hκ eL eP eg
  rw [← hb] at qb
  have qc := cyl_c h hu (r := r) hPW eP rM
  rw [← hc] at qc
  have hb0 : |b₀| ≤ ‖perpE (‖a‖⁻¹ • a) (q - p)‖ := by
    rw [hb, abs_div, abs_of_pos hs, div_le_iff₀ hs, mul_comm, hse]
    exact abs_real_inner_le_norm _ _
  have hP2 : ‖perpE (‖a‖⁻¹ • a) (q - p)‖ ^ 2 ≤ W ^ 2 := pow_le_pow_left₀ (norm_nonneg _) hPW 2
  have hc0 : |c₀| ≤ W ^ 2 + r ^ 2 := by
    rw [hc]
    refine (abs_sub _ _).trans ?_
    rw [abs_of_nonneg (sq_nonneg _), abs_of_nonneg (sq_nonneg _)]; linarith
  have hE : b₀ ^ 2 - c₀ ≤ r ^ 2 := by
    have := pow_le_pow_left₀ (abs_nonneg _) hb0 2
    rw [sq_abs] at this
    rw [hc]; linarith
  obtain ⟨hA, D, hD, eD, hval⟩ := cyl_solve h hs hs1 huκ hκ0 hκ hW0 hr.le (hb0.trans hPW) hc0 hE qa qb qc
  obtain ⟨hneg, hpos⟩ := solve_rd (fl := fl) hnd hA hD.symm
  have h4s : 0 < 4 * s ^ 2 := by positivity
  refine ⟨D, eD, fun h0 => ?_, fun h0 => ?_⟩
  · obtain ⟨msg, hm⟩ := hneg (mul_neg_of_pos_of_neg h4s h0)
    rw [hcomp, hm]; rfl
  · obtain ⟨hR, hroot⟩ := hval h0
    refine ⟨hR, ?_⟩
    have hp := hpos (mul_nonneg h4s.le h0)
    obtain ⟨t, ht⟩ : ∃ t, t = fl (fl (-fl (2 * g) + fl ((-1) * fl (√(4 * s ^ 2 * D)))) / fl (2 * fl (N * N))) := ⟨_, rfl⟩
    obtain ⟨t', ht'⟩ : ∃ t, t = fl (fl (-fl (2 * g) + fl (1 * fl (√(4 * s ^ 2 * D)))) / fl (2 * fl (N * N))) := ⟨_, rfl⟩
    have r1 := hroot (-1) (by simp)
    have r2 := hroot 1 (by simp)
    rw [← ht] at r1
    rw [← ht'] at r2
    rw [← ht, ← ht'] at hp
    obtain ⟨y, hy, ey⟩ := line_pt_rd h hu (q := q) (norm_unit hd) cz t
    obtain ⟨y', hy', ey'⟩ := line_pt_rd h hu (q := q) (norm_unit hd) cz t'
    have hts : ∀ t : ℝ, s * t / s = t := fun t => by field_simp
    refine ⟨y, y', s * t, s * t', ?_, by rw [hts]; exact ey, by rw [hts]; exact ey', r1, r2⟩
    rw [hcomp, hp]
    obtain ⟨v1, hv1, hv1'⟩ := bind_ok_iff.mp hy
    obtain ⟨v2, hv2, hv2'⟩ := bind_ok_iff.mp hy'
    simp only [ok_bind, hv1, hv2, hv1', hv2', pure_ok]

/-- Constants: nearness to the exact points. -/
theorem cyl_fwd {u κ s W r ρ Q x T T₀ R : ℝ} (hu0 : 0 ≤ u) (hs : 0 < s) (hs1 : s ≤ 1) (huκ : u = κ * s) (hκ : κ ≤ 1 / 10 ^ 5) (hW : 0 ≤ W)
    (hρ : 0 < ρ) (hρr : ρ ≤ r) (hT : |T - T₀| ≤ 400 * κ * (W + r)) (hT0 : |T₀| ≤ 21 / 10 * (W + r))
    (hR : |T₀ - R| ≤ 500 * κ * (W ^ 2 + r ^ 2) / ρ) (hx : x ≤ u * (2 * Q + 13 * |T / s|)) :
    x + |T / s - R / s| ≤ u * (2 * Q + 1100 * ((W ^ 2 + r ^ 2) / (s ^ 2 * ρ))) ∧ x ≤ u * (2 * Q + 30 * ((W + r) / s)) := by
  have hκ0 : 0 ≤ κ := by
    by_contra hneg
    have : κ * s < 0 := mul_neg_of_neg_of_pos (not_le.mp hneg) hs
    linarith
  have hV : 0 ≤ W + r := by linarith
  have hκV : κ * (W + r) ≤ 1 / 100000 * (W + r) := mul_le_mul_of_nonneg_right (by norm_num at hκ ⊢; exact hκ) hV
  have bT : |T| ≤ 22 / 10 * (W + r) := by
    have := abs_add_le (T - T₀) T₀
    rw [sub_add_cancel] at this; linarith
  have bT' : 13 * |T / s| ≤ 30 * ((W + r) / s) := by
    rw [abs_div, abs_of_pos hs]
    have := div_le_div_of_nonneg_right bT hs.le
    rw [mul_div_assoc] at this
    have : 0 ≤ (W + r) / s := by positivity
    linarith
  have h2 : x ≤ u * (2 * Q + 30 * ((W + r) / s)) := hx.trans (mul_le_mul_of_nonneg_left (by linarith) hu0)
  refine ⟨?_, h2⟩
  have hκs : κ = u / s := by rw [huκ]; field_simp
  have e1 : |T / s - R / s| ≤ 400 * (u * ((W + r) / s ^ 2)) + 500 * (u * ((W ^ 2 + r ^ 2) / (s ^ 2 * ρ))) := by
    rw [← sub_div, abs_div, abs_of_pos hs, div_le_iff₀ hs]
    have e2 := abs_add_le (T - T₀) (T₀ - R)
    rw [sub_add_sub_cancel] at e2
    refine (e2.trans (add_le_add hT hR)).trans (le_of_eq ?_)
    rw [hκs]; field_simp
  have e3 := cyl_const (s := s ^ 2) hW (by positivity) hρ hρr
  have e4 : (W + r) / s ≤ (W + r) / s ^ 2 := by
    refine div_le_div_of_nonneg_left hV (by positivity) (by nlinarith)
  have f3 := mul_le_mul_of_nonneg_left e3 hu0
  have f4 := mul_le_mul_of_nonneg_left e4 hu0
  have f5 : 0 ≤ u * ((W + r) / s ^ 2) := by positivity
  have f6 : 0 ≤ u * ((W ^ 2 + r ^ 2) / (s ^ 2 * ρ)) := by positivity
  linarith

/-- C111: `cylinder.intersect_line(line)` (infinite cylinder) under rounding.  Let `W` be the distance of the line's point `q` from the
cylinder's point `p`, `H` the distance of the line from the axis, and `s` the sine of the angle between them, with `10⁵ u ≤ s`.

* If `r² + 500 (u/s) (W² + r²) < H²`, it raises.
* If `H² + 500 (u/s) (W² + r²) < r²`, it returns two points within `u (2 ‖q‖ + 1100 (W² + r²) / (s² √(r² - H²)))` of the two exact ones.
* Whenever it returns, the points are within `u (2 ‖q‖ + 30 (W + r) / s)` of the line, and their distance from the axis is the radius up
  to `u (2 ‖q‖ + 1100 (W² + r²) / (s r))`. -/
theorem C111_infinite_cylinder (h : StdRounding u fl) {p a q d : E 3} {r : ℝ} {C : Cylinder ℝ} {L : Line ℝ}
    (hC : @Cylinder.new ℝ (rounded fl) (arr p) (arr a) r = .ok C) (hL : @Line.new ℝ (rounded fl) (arr q) (arr d) = .ok L)
    {s H : ℝ} (hse : s = √(1 - cosE a d ^ 2)) (hs : 0 < s) (hus : 10 ^ 5 * u ≤ s) (hH : IsLeast (lineDistances p a q d) H)
    {nd : Option Int} (hnd : nd = none ∨ nd = some 0) :
    (r ^ 2 + 500 * (u / s) * (dist q p ^ 2 + r ^ 2) < H ^ 2 →
      @Cylinder.intersectLine ℝ (rounded fl) C L nd true = .error (.valueError "The line does not intersect the cylinder.")) ∧
    (H ^ 2 + 500 * (u / s) * (dist q p ^ 2 + r ^ 2) < r ^ 2 →
      ∃ y y' x x' : E 3, @Cylinder.intersectLine ℝ (rounded fl) C L nd true = .ok (arr y, arr y') ∧
        infCyl p a r ∩ lineSet q d = {x, x'} ∧ (∃ t : ℝ, 0 ≤ t ∧ x' = x + t • d) ∧
        dist y x ≤ u * (2 * ‖q‖ + 1100 * ((dist q p ^ 2 + r ^ 2) / (s ^ 2 * √(r ^ 2 - H ^ 2)))) ∧
        dist y' x' ≤ u * (2 * ‖q‖ + 1100 * ((dist q p ^ 2 + r ^ 2) / (s ^ 2 * √(r ^ 2 - H ^ 2))))) ∧
    (∀ res, @Cylinder.intersectLine ℝ (rounded fl) C L nd true = .ok res → ∃ y y' : E 3, res = (arr y, arr y') ∧
      ∀ z, z = y ∨ z = y' → Metric.infDist z (lineSet q d) ≤ u * (2 * ‖q‖ + 30 * ((dist q p + r) / s)) ∧
        |Metric.infDist z (lineSet p a) - r| ≤ u * (2 * ‖q‖ + 1100 * ((dist q p ^ 2 + r ^ 2) / (s * r)))) := by
  have hu0 := h.nonneg
  have hu2 : u ≤ 1 / 2 := by
    have : s ≤ 1 := by rw [hse, Real.sqrt_le_one]; linarith [sq_nonneg (cosE a d)]
    linarith
  obtain ⟨ha, hr, rfl⟩ := cylinder_new_rd h hu2 hC
  obtain ⟨hd, rfl⟩ := line_new_rd h hu2 hL
  rw [sine_eq ha hd] at hse
  obtain ⟨κ, hκd⟩ : ∃ κ, κ = u / s := ⟨_, rfl⟩
  have huκ : u = κ * s := by rw [hκd]; field_simp
  have hκ : κ ≤ 1 / 10 ^ 5 := by rw [hκd, div_le_iff₀ hs]; linarith
  have hκ0 : 0 ≤ κ := by rw [hκd]; positivity
  have hs1 : s ≤ 1 := by rw [hse]; exact (norm_perp_le (norm_unit ha) _).trans (norm_unit hd).le
  obtain ⟨W, hW⟩ : ∃ W, W = ‖q - p‖ := ⟨_, rfl⟩
  have hW0 : 0 ≤ W := by rw [hW]; exact norm_nonneg _
  obtain ⟨b₀, hb⟩ : ∃ x : ℝ, x = inner ℝ (perpE (‖a‖⁻¹ • a) (‖d‖⁻¹ • d)) (perpE (‖a‖⁻¹ • a) (q - p)) / s := ⟨_, rfl⟩
  obtain ⟨c₀, hc⟩ : ∃ x : ℝ, x = ‖perpE (‖a‖⁻¹ • a) (q - p)‖ ^ 2 - r ^ 2 := ⟨_, rfl⟩
  have hline := axis_dist (r := r) (q := q) (p := p) ha hs hse hb hc
  have hset := cyl_set (q := q) (p := p) ha hd hr hs hse hb hc
  have hlip := fun t t' => cyl_axis_lip (p := p) (q := q) (e := ‖d‖⁻¹ • d) ha t t'
  rw [← hse] at hlip
  have hb0 : |b₀| ≤ W := by
    have : |b₀| ≤ ‖perpE (‖a‖⁻¹ • a) (q - p)‖ := by
      rw [hb, abs_div, abs_of_pos hs, div_le_iff₀ hs, mul_comm, hse]
      exact abs_real_inner_le_norm _ _
    exact this.trans (by rw [hW]; exact norm_perp_le (norm_unit ha) _)
  have hH2 : H ^ 2 = r ^ 2 - (b₀ ^ 2 - c₀) :=
    axis_least hH (lineSet_unit' q hd).symm (fun t => s * t + b₀) (fun t => by rw [hline]; ring) ⟨-b₀ / s, by field_simp; ring⟩
  obtain ⟨D, eD, hneg, hpos⟩ := cyl_core h ha hd hr hse hs huκ hκ hb hc hW hnd
  have hDd : (‖d‖⁻¹ : ℝ) ≠ 0 := inv_ne_zero (norm_ne_zero_iff.mpr hd)
  rw [dist_eq_norm, ← hW, ← hκd, hH2, show r ^ 2 - (r ^ 2 - (b₀ ^ 2 - c₀)) = b₀ ^ 2 - c₀ by ring]
  obtain ⟨F, hF⟩ : ∃ F, F = b₀ ^ 2 - c₀ := ⟨_, rfl⟩
  rw [← hF] at eD hset hline hH2 ⊢
  have hlineset := lineSet_unit' q hd
  have hen := norm_unit hd
  obtain ⟨e, he⟩ : ∃ e, e = ‖d‖⁻¹ • d := ⟨_, rfl⟩
  rw [← he] at hset hpos hlip hline hlineset hen
  have hV0 : 0 ≤ κ * (W ^ 2 + r ^ 2) := by positivity
  refine ⟨fun hlt => hneg ?_, fun hlt => ?_, fun res hres => ?_⟩
  · have := (abs_le.mp eD).2
    linarith
  · have hF0 : 0 < F := by linarith
    have hD0 : 0 ≤ D := by have := (abs_le.mp eD).1; linarith
    obtain ⟨hR, y, y', T, T', hy, ey, ey', eT, eT'⟩ := hpos hD0
    have hρ := Real.sqrt_pos.mpr hF0
    have hρr : √F ≤ r := by rw [Real.sqrt_le_left hr.le]; linarith [sq_nonneg H]
    have hsq := sqrt_diff hF0 hD0 eD
    have key : ∀ (v : E 3) (t σ : ℝ), |σ| = 1 → ‖v - (q + (t / s) • e)‖ ≤ u * (2 * ‖q‖ + 13 * |t / s|) →
        |t - (-b₀ + σ * √D)| ≤ 400 * κ * (W + r) →
        dist v (q + ((-b₀ + σ * √F) / s) • e) ≤ u * (2 * ‖q‖ + 1100 * ((W ^ 2 + r ^ 2) / (s ^ 2 * √F))) := by
      intro v t σ hσ hv ht
      have hT0 : |-b₀ + σ * √D| ≤ 21 / 10 * (W + r) := by
        refine (abs_add_le _ _).trans ?_
        rw [abs_neg, abs_mul, hσ, one_mul, abs_of_nonneg (Real.sqrt_nonneg D)]; linarith
      have hRR : |(-b₀ + σ * √D) - (-b₀ + σ * √F)| ≤ 500 * κ * (W ^ 2 + r ^ 2) / √F := by
        rw [show (-b₀ + σ * √D) - (-b₀ + σ * √F) = σ * (√D - √F) by ring, abs_mul, hσ, one_mul]; exact hsq
      have hfin := (cyl_fwd hu0 hs hs1 huκ hκ hW0 hρ hρr ht hT0 hRR hv).1
      refine le_trans ?_ hfin
      rw [dist_eq_norm, show v - (q + ((-b₀ + σ * √F) / s) • e) = (v - (q + (t / s) • e)) + (t / s - (-b₀ + σ * √F) / s) • e by module]
      refine (norm_add_le _ _).trans ?_
      rw [norm_smul, hen, mul_one, Real.norm_eq_abs]
    refine ⟨y, y', _, _, hy, hset hF0.le, ⟨2 * √F / s * ‖d‖⁻¹, by positivity, ?_⟩, key y T (-1) (by simp) ey eT, key y' T' 1 (by simp) ey' eT'⟩
    rw [he]; module
  · have hD0 : 0 ≤ D := by
      by_contra hcon
      rw [hneg (not_le.mp hcon)] at hres
      cases hres
    obtain ⟨hR, y, y', T, T', hy, ey, ey', eT, eT'⟩ := hpos hD0
    rw [hy] at hres
    refine ⟨y, y', (Except.ok.inj hres).symm, ?_⟩
    have key : ∀ (z : E 3) (t σ : ℝ), σ ^ 2 = 1 → ‖z - (q + (t / s) • e)‖ ≤ u * (2 * ‖q‖ + 13 * |t / s|) →
        |t - (-b₀ + σ * √D)| ≤ 400 * κ * (W + r) →
        Metric.infDist z (lineSet q d) ≤ u * (2 * ‖q‖ + 30 * ((W + r) / s)) ∧
        |Metric.infDist z (lineSet p a) - r| ≤ u * (2 * ‖q‖ + 1100 * ((W ^ 2 + r ^ 2) / (s * r))) := by
      intro z t σ hσ hz ht
      have hσ1 : |σ| = 1 := by rw [← sq_eq_sq₀ (abs_nonneg _) zero_le_one, sq_abs, hσ, one_pow]
      have hT0 : |-b₀ + σ * √D| ≤ 21 / 10 * (W + r) := by
        refine (abs_add_le _ _).trans ?_
        rw [abs_neg, abs_mul, hσ1, one_mul, abs_of_nonneg (Real.sqrt_nonneg D)]; linarith
      have hz2 := (cyl_fwd hu0 hs hs1 huκ hκ hW0 hr le_rfl ht hT0 (R := -b₀ + σ * √D) (by rw [sub_self, abs_zero]; positivity) hz).2
      refine ⟨?_, ?_⟩
      · refine le_trans ?_ hz2
        rw [← hlineset, ← dist_eq_norm]
        exact Metric.infDist_le_dist_of_mem ⟨_, rfl⟩
      · have l1 := Metric.infDist_le_infDist_add_dist (s := lineSet p a) (x := z) (y := q + (t / s) • e)
        have l2 := Metric.infDist_le_infDist_add_dist (s := lineSet p a) (x := q + (t / s) • e) (y := z)
        rw [dist_comm, dist_eq_norm] at l2
        rw [dist_eq_norm] at l1
        have l3 := hlip (t / s) ((-b₀ + σ * √D) / s)
        rw [← sub_div, abs_div, abs_of_pos hs, div_mul_cancel₀ _ hs.ne'] at l3
        have l4 : |Metric.infDist (q + ((-b₀ + σ * √D) / s) • e) (lineSet p a) - r| ≤ 500 * κ * ((W ^ 2 + r ^ 2) / r) := by
          refine cc_dist hr Metric.infDist_nonneg ?_
          rw [hline, mul_div_cancel₀ _ hs.ne',
            show r ^ 2 + (-b₀ + σ * √D + b₀) ^ 2 - F - r ^ 2 = D - F by linear_combination √D ^ 2 * hσ + Real.sq_sqrt hD0]
          exact eD
        have c1 := cyl_const hW0 hs hr le_rfl
        have c2 : κ * ((W ^ 2 + r ^ 2) / r) = u * ((W ^ 2 + r ^ 2) / (s * r)) := by rw [hκd]; field_simp
        have c3 : κ * (W + r) = u * ((W + r) / s) := by rw [hκd]; field_simp
        have c4 := mul_le_mul_of_nonneg_left c1 hu0
        have c5 : 0 ≤ u * ((W ^ 2 + r ^ 2) / (s * r)) := by positivity
        have m1 := abs_le.mp (l3.trans ht)
        have m2 := abs_le.mp l4
        rw [abs_le]
        constructor <;> linarith [m1.1, m1.2, m2.1, m2.2]
    rintro z (rfl | rfl)
    · exact key _ _ _ (by norm_num) ey eT
    · exact key _ _ _ (by norm_num) ey' eT'

/-- A line through the axis of the unit cylinder, and one at the distance 2 from it, in binary64. -/
example : √(1 - cosE (vec3 0 0 1) (vec3 1 0 0) ^ 2) = 1 ∧ (10 : ℝ) ^ 5 * 2⁻¹ ^ 53 ≤ 1 ∧
    (IsLeast (lineDistances 0 (vec3 0 0 1) (vec3 (-2) 0 0) (vec3 1 0 0)) 0 ∧
      (0 : ℝ) ^ 2 + 500 * (2⁻¹ ^ 53 / 1) * (dist (vec3 (-2) 0 0) 0 ^ 2 + 1 ^ 2) < 1 ^ 2) ∧
    (IsLeast (lineDistances 0 (vec3 0 0 1) (vec3 0 2 0) (vec3 1 0 0)) 2 ∧
      (1 : ℝ) ^ 2 + 500 * (2⁻¹ ^ 53 / 1) * (dist (vec3 0 2 0) 0 ^ 2 + 1 ^ 2) < 2 ^ 2) := by
  refine ⟨by simp [cosE, inner3, vec3], by norm_num, ⟨⟨⟨0, ⟨0, by simp⟩, 0, ⟨2, ?_⟩, by simp⟩, ?_⟩, ?_⟩, ⟨⟨⟨0, ⟨0, by simp⟩, vec3 0 2 0, ⟨0, by simp⟩, ?_⟩, ?_⟩, ?_⟩⟩
  · ext i; fin_cases i <;> simp [vec3]
  · rintro r ⟨x, -, y, -, rfl⟩; exact dist_nonneg
  · rw [dist_zero_right, norm_sq3]; simp [vec3]; norm_num
  · rw [dist_zero_left, ← sq_eq_sq₀ (by norm_num) (norm_nonneg _), norm_sq3]; simp [vec3]
  · rintro r ⟨x, ⟨t, rfl⟩, y, ⟨t', rfl⟩, rfl⟩
    rw [dist_eq_norm]
    apply abs_le_of_sq_le_sq' _ (norm_nonneg _) |>.2
    rw [norm_sq3]; simp [vec3]
    nlinarith [sq_nonneg t, sq_nonneg t']
  · rw [dist_zero_right, norm_sq3]; simp [vec3]; norm_num

end SkSpatial
