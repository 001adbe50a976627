import Verif.Props.Rounding14
import Verif.Props.Circle2
/-! # C110: intersections of spheres and circles with lines under rounding -/

namespace SkSpatial
open StdRounding

variable {u : ℝ} {fl : Arith} {n : ℕ}

theorem fl_near (h : StdRounding u fl) {x' x α : ℝ} (hx : |x' - x| ≤ α) : |fl x' - x| ≤ α + u * (|x| + α) := by
  have h1 := h.err x'
  have h2 : |x'| ≤ |x| + α := by
    have := abs_add_le (x' - x) x
    rw [sub_add_cancel] at this; linarith
  have h3 := mul_le_mul_of_nonneg_left h2 h.nonneg
  have h4 := abs_add_le (fl x' - x') (x' - x)
  rw [sub_add_sub_cancel] at h4
  linarith

theorem fl_sub_near (h : StdRounding u fl) {a' a b' b α β A B : ℝ} (ha : |a' - a| ≤ α) (hb : |b' - b| ≤ β) (hA : |a| ≤ A)
    (hB : |b| ≤ B) : |fl (a' - b') - (a - b)| ≤ α + β + u * (A + B + α + β) := by
  have h1 : |(a' - b') - (a - b)| ≤ α + β := by
    rw [show (a' - b') - (a - b) = (a' - a) - (b' - b) by ring]
    exact (abs_sub _ _).trans (add_le_add ha hb)
  have h2 := fl_near h h1
  have h3 : |a - b| ≤ A + B := (abs_sub _ _).trans (add_le_add hA hB)
  have h4 := mul_le_mul_of_nonneg_left h3 h.nonneg
  linarith

theorem fl_add_near (h : StdRounding u fl) {a' a b' b α β A B : ℝ} (ha : |a' - a| ≤ α) (hb : |b' - b| ≤ β) (hA : |a| ≤ A)
    (hB : |b| ≤ B) : |fl (a' + b') - (a + b)| ≤ α + β + u * (A + B + α + β) := by
  have h1 : |(a' + b') - (a + b)| ≤ α + β := by
    rw [show (a' + b') - (a + b) = (a' - a) + (b' - b) by ring]
    exact (abs_add_le _ _).trans (add_le_add ha hb)
  have h2 := fl_near h h1
  have h3 : |a + b| ≤ A + B := (abs_add_le _ _).trans (add_le_add hA hB)
  have h4 := mul_le_mul_of_nonneg_left h3 h.nonneg
  linarith

theorem fl_mul_near (h : StdRounding u fl) {a' a b' b α β A B : ℝ} (ha : |a' - a| ≤ α) (hb : |b' - b| ≤ β) (hA : |a| ≤ A)
    (hB : |b| ≤ B) : |fl (a' * b') - a * b| ≤ (α * B + A * β + α * β) + u * (A * B + (α * B + A * β + α * β)) := by
  have hα : 0 ≤ α := (abs_nonneg _).trans ha
  have hβ : 0 ≤ β := (abs_nonneg _).trans hb
  have hA0 : 0 ≤ A := (abs_nonneg _).trans hA
  have h1 : |a' * b' - a * b| ≤ α * B + A * β + α * β := by
    rw [show a' * b' - a * b = (a' - a) * b + a * (b' - b) + (a' - a) * (b' - b) by ring]
    refine (abs_add_three _ _ _).trans ?_
    rw [abs_mul, abs_mul, abs_mul]
    exact add_le_add (add_le_add (mul_le_mul ha hB (abs_nonneg _) hα) (mul_le_mul hA hb (abs_nonneg _) hA0))
      (mul_le_mul ha hb (abs_nonneg _) hα)
  have h2 := fl_near h h1
  have h3 : |a * b| ≤ A * B := by rw [abs_mul]; exact mul_le_mul hA hB (abs_nonneg _) hA0
  have h4 := mul_le_mul_of_nonneg_left h3 h.nonneg
  linarith

/-- Rounding error of the discriminant. -/
theorem disc_const (h : StdRounding u fl) (hu : u ≤ 1 / 10 ^ 5) {d' d N W r : ℝ} (hW : 0 ≤ W) (hr : 0 ≤ r) (hd : |d| ≤ W)
    (hd' : |d' - d| ≤ 18 * u * W) (hN : |N - W| ≤ 8 * u * W) :
    |fl (fl (d' * d') - fl (fl (N * N) - fl (r * r))) - (d ^ 2 - (W ^ 2 - r ^ 2))| ≤ 70 * u * (W ^ 2 + r ^ 2) := by
  have hu0 := h.nonneg
  have hWW : |W| ≤ W := by rw [abs_of_nonneg hW]
  have e1 := fl_mul_near h hd' hd' hd hd
  have e2 := fl_mul_near h hN hN hWW hWW
  have e3 : |fl (r * r) - r * r| ≤ u * (r * r) := by
    have := h.err (r * r); rwa [abs_of_nonneg (by positivity : 0 ≤ r * r)] at this
  have b1 : |fl (d' * d') - d * d| ≤ 38 * u * W ^ 2 := by
    refine e1.trans ?_
    obtain ⟨T, hT⟩ : ∃ T, T = u * W ^ 2 := ⟨_, rfl⟩
    have hT0 : 0 ≤ T := by rw [hT]; positivity
    have f1 : (18 * u * W * W + W * (18 * u * W) + 18 * u * W * (18 * u * W)) +
        u * (W * W + (18 * u * W * W + W * (18 * u * W) + 18 * u * W * (18 * u * W))) = (37 + 360 * u + 324 * u ^ 2) * T := by
      rw [hT]; ring
    rw [f1, show 38 * u * W ^ 2 = 38 * T by rw [hT]; ring]
    refine mul_le_mul_of_nonneg_right ?_ hT0
    nlinarith
  have b2 : |fl (N * N) - W * W| ≤ 18 * u * W ^ 2 := by
    refine e2.trans ?_
    obtain ⟨T, hT⟩ : ∃ T, T = u * W ^ 2 := ⟨_, rfl⟩
    have hT0 : 0 ≤ T := by rw [hT]; positivity
    have f1 : (8 * u * W * W + W * (8 * u * W) + 8 * u * W * (8 * u * W)) +
        u * (W * W + (8 * u * W * W + W * (8 * u * W) + 8 * u * W * (8 * u * W))) = (17 + 80 * u + 64 * u ^ 2) * T := by
      rw [hT]; ring
    rw [f1, show 18 * u * W ^ 2 = 18 * T by rw [hT]; ring]
    refine mul_le_mul_of_nonneg_right ?_ hT0
    nlinarith
  have b3 := fl_sub_near h b2 e3 (abs_of_nonneg (mul_nonneg hW hW)).le (abs_of_nonneg (mul_nonneg hr hr)).le
  have hdd : |d * d| ≤ W * W := by rw [abs_mul]; exact mul_le_mul hd hd (abs_nonneg _) hW
  have hin : |W * W - r * r| ≤ W * W + r * r := by
    refine (abs_sub _ _).trans ?_
    rw [abs_of_nonneg (mul_nonneg hW hW), abs_of_nonneg (mul_nonneg hr hr)]
  have b4 := fl_sub_near h b1 b3 hdd hin
  rw [show d ^ 2 - (W ^ 2 - r ^ 2) = d * d - (W * W - r * r) by ring]
  refine b4.trans ?_
  obtain ⟨X, hX⟩ : ∃ X, X = u * W ^ 2 := ⟨_, rfl⟩
  obtain ⟨Y, hY⟩ : ∃ Y, Y = u * r ^ 2 := ⟨_, rfl⟩
  have hX0 : 0 ≤ X := by rw [hX]; positivity
  have hY0 : 0 ≤ Y := by rw [hY]; positivity
  have hXu : u * X ≤ 1 / 10 ^ 5 * X := mul_le_mul_of_nonneg_right hu hX0
  have hYu : u * Y ≤ 1 / 10 ^ 5 * Y := mul_le_mul_of_nonneg_right hu hY0
  have hXuu : u * (u * X) ≤ 1 / 10 ^ 5 * (1 / 10 ^ 5 * X) := mul_le_mul hu hXu (by positivity) (by norm_num)
  have hYuu : u * (u * Y) ≤ 1 / 10 ^ 5 * (1 / 10 ^ 5 * Y) := mul_le_mul hu hYu (by positivity) (by norm_num)
  have f : 38 * u * W ^ 2 + (18 * u * W ^ 2 + u * (r * r) + u * (W * W + r * r + 18 * u * W ^ 2 + u * (r * r))) +
      u * (W * W + (W * W + r * r) + 38 * u * W ^ 2 +
        (18 * u * W ^ 2 + u * (r * r) + u * (W * W + r * r + 18 * u * W ^ 2 + u * (r * r)))) =
      59 * X + 3 * Y + (75 * (u * X) + 3 * (u * Y)) + (18 * (u * (u * X)) + u * (u * Y)) := by rw [hX, hY]; ring
  rw [f, show 70 * u * (W ^ 2 + r ^ 2) = 70 * X + 70 * Y by rw [hX, hY]; ring]
  norm_num at hXu hYu hXuu hYuu
  linarith

/-- The root of the rounded discriminant is not much larger than the radius. -/
theorem root_le {D r W b : ℝ} (hr : 0 ≤ r) (hW : 0 ≤ W) (hb : b ≤ 1 / 50) (hD : D ≤ r ^ 2 + b * (W ^ 2 + r ^ 2)) :
    √D ≤ 11 / 10 * (W + r) := by
  rw [Real.sqrt_le_left (by positivity)]
  have h1 : b * (W ^ 2 + r ^ 2) ≤ 1 / 50 * (W ^ 2 + r ^ 2) := mul_le_mul_of_nonneg_right hb (by positivity)
  have h2 : 0 ≤ W * r := mul_nonneg hW hr
  nlinarith [sq_nonneg W, sq_nonneg r]

/-- The computed point against the point of the line with the exact parameter for the rounded root. -/
theorem line_point_rd [NeZero n] (h : StdRounding u fl) (hu : u ≤ 1 / 10 ^ 5) {q e z : E n} (he : ‖e‖ = 1) (hz : CRP (eps u) 4 z e)
    {d' d s W r : ℝ} (σ : ℝ) (hσ : |σ| = 1) (hW : 0 ≤ W) (hr : 0 ≤ r) (hs : 0 ≤ s) (hsle : s ≤ 11 / 10 * (W + r)) (hd : |d| ≤ W)
    (hd' : |d' - d| ≤ 18 * u * W) :
    ∃ y : E n, (do let a ← @vadd ℝ (rounded fl) (arr q) (@smul ℝ (rounded fl) (fl (-d' + fl (σ * fl s))) (arr z))
                   @new1D ℝ (rounded fl) a) = .ok (arr y) ∧
      ‖y - (q + (-d + σ * s) • e)‖ ≤ u * (2 * ‖q‖ + 60 * (W + r)) := by
  have hu0 := h.nonneg
  obtain ⟨t, ht⟩ : ∃ t, t = fl (-d' + fl (σ * fl s)) := ⟨_, rfl⟩
  rw [← ht]
  obtain ⟨m, hm, hmi⟩ := smul_rd (fl := fl) t z
  obtain ⟨y, hy, hyi⟩ := vadd_rd (fl := fl) q m
  refine ⟨y, by rw [hm, hy, ok_bind, new1D_rd], ?_⟩
  obtain ⟨V, hV⟩ : ∃ V, V = W + r := ⟨_, rfl⟩
  have hV0 : 0 ≤ V := by rw [hV]; positivity
  have hWV : W ≤ V := by rw [hV]; linarith
  rw [← hV] at hsle ⊢
  have e0 : |fl s - s| ≤ u * s := by have := h.err s; rwa [abs_of_nonneg hs] at this
  have e1 : |σ * fl s - σ * s| ≤ u * s := by rw [← mul_sub, abs_mul, hσ, one_mul]; exact e0
  have hσs : |σ * s| ≤ 11 / 10 * V := by rw [abs_mul, hσ, one_mul, abs_of_nonneg hs]; exact hsle
  have hus : u * s ≤ 11 / 10 * (u * V) := by
    have := mul_le_mul_of_nonneg_left hsle hu0; linarith
  have huV : u * (u * V) ≤ 1 / 10 ^ 5 * (u * V) := mul_le_mul_of_nonneg_right hu (by positivity)
  norm_num at huV
  have e2 : |fl (σ * fl s) - σ * s| ≤ 23 / 10 * (u * V) := by
    refine (fl_near h e1).trans ?_
    have := mul_le_mul_of_nonneg_left (add_le_add hσs hus) hu0
    rw [show u * (11 / 10 * V + 11 / 10 * (u * V)) = 11 / 10 * (u * V) + 11 / 10 * (u * (u * V)) by ring] at this
    linarith [mul_nonneg hu0 hV0]
  have e3 : |(-d') - (-d)| ≤ 18 * (u * V) := by
    rw [show (-d') - (-d) = -(d' - d) by ring, abs_neg]
    refine hd'.trans ?_
    have := mul_le_mul_of_nonneg_left hWV hu0
    linarith
  have e4 := fl_add_near h (A := V) e3 e2 (by rw [abs_neg]; exact hd.trans hWV) hσs
  rw [← ht] at e4
  have b4 : |t - (-d + σ * s)| ≤ 23 * (u * V) := by
    refine e4.trans ?_
    rw [show u * (V + 11 / 10 * V + 18 * (u * V) + 23 / 10 * (u * V)) = 21 / 10 * (u * V) + 203 / 10 * (u * (u * V)) by ring]
    linarith [mul_nonneg hu0 hV0]
  have bτ : |-d + σ * s| ≤ 21 / 10 * V := by
    refine (abs_add_le _ _).trans ?_
    rw [abs_neg]; linarith
  have huV1 : u * V ≤ 1 / 10 ^ 5 * V := mul_le_mul_of_nonneg_right hu hV0
  norm_num at huV1
  have bt : |t| ≤ 22 / 10 * V := by
    have := abs_add_le (t - (-d + σ * s)) (-d + σ * s)
    rw [sub_add_cancel] at this
    linarith
  have hcm : CRP (eps u) 5 m (t • e) := by
    intro i
    rw [hmi]
    have := h.step ((RP.refl (eps u) t).mul (hz i))
    rw [show (0 + 4 + 1 : ℝ) = 5 by norm_num] at this
    simpa using this
  have x5 : Real.exp (5 * eps u) - 1 ≤ 2 * 5 * u := exp_eps_le2 h (by norm_num) (by norm_num at hu; linarith)
  have x1 : Real.exp (1 * eps u) - 1 ≤ 2 * 1 * u := exp_eps_le2 h le_rfl (by norm_num at hu; linarith)
  have hte : ‖t • e‖ = |t| := by rw [norm_smul, he, mul_one, Real.norm_eq_abs]
  have hε := h.eps_nonneg
  have f1 : ‖m - t • e‖ ≤ 22 * (u * V) := by
    refine (CRP.norm_sub_le hcm (by positivity)).trans ?_
    rw [hte]
    have := mul_le_mul x5 bt (abs_nonneg _) (by positivity)
    linarith
  have f0 : ‖m‖ ≤ 23 / 10 * V := by
    have := norm_add_le (m - t • e) (t • e)
    rw [sub_add_cancel, hte] at this
    linarith
  have hcy : CRP (eps u) 1 y (q + m) := fun i => by rw [hyi]; exact h.rp _
  have f2 : ‖y - (q + m)‖ ≤ 2 * u * (‖q‖ + 23 / 10 * V) := by
    refine (CRP.norm_sub_le hcy (by positivity)).trans ?_
    have e1 := mul_le_mul_of_nonneg_right x1 (norm_nonneg (q + m))
    have e2 := mul_le_mul_of_nonneg_left ((norm_add_le q m).trans (add_le_add le_rfl f0)) (by positivity : 0 ≤ 2 * u)
    linarith
  have f3 : ‖t • e - (-d + σ * s) • e‖ ≤ 23 * (u * V) := by
    rw [← sub_smul, norm_smul, he, mul_one, Real.norm_eq_abs]; exact b4
  have e5 : y - (q + (-d + σ * s) • e) = (y - (q + m)) + (m - t • e) + (t • e - (-d + σ * s) • e) := by module
  rw [e5]
  refine (norm_add₃_le).trans ?_
  have : u * (2 * ‖q‖ + 60 * V) = 2 * u * ‖q‖ + 60 * (u * V) := by ring
  rw [this]
  have : 2 * u * (‖q‖ + 23 / 10 * V) = 2 * u * ‖q‖ + 46 / 10 * (u * V) := by ring
  linarith [mul_nonneg hu0 hV0]

/-- The points of a line at the distance `r` from `c`: the squared half chord is `r²` less the squared distance of the line. -/
theorem chord_eq {c q d : E n} (hd : d ≠ 0) (r : ℝ) :
    (inner ℝ (‖d‖⁻¹ • d) (q - c) : ℝ) ^ 2 - (‖q - c‖ ^ 2 - r ^ 2) = r ^ 2 - Metric.infDist c (lineSet q d) ^ 2 := by
  have h0 : ‖d‖ ≠ 0 := norm_ne_zero_iff.mpr hd
  rw [infDist_lineSet q hd, footE, dist_eq_norm, ← sub_sub, ← neg_sub q c]
  obtain ⟨w, hw⟩ : ∃ w, w = q - c := ⟨_, rfl⟩
  rw [← hw, norm_sub_sq_real, norm_neg, norm_smul, mul_pow, real_inner_smul_right, Real.norm_eq_abs, sq_abs,
    real_inner_smul_left, inner_neg_left, inner_neg_right, real_inner_comm d w]
  field_simp
  ring

theorem chord_set {c q d : E n} (hd : d ≠ 0) {r δ D : ℝ} (hr : 0 ≤ r) (hδ : δ = inner ℝ (‖d‖⁻¹ • d) (q - c))
    (hD : D = δ ^ 2 - (‖q - c‖ ^ 2 - r ^ 2)) (h0 : 0 ≤ D) : Metric.sphere c r ∩ lineSet q d =
      {q + (-δ + (-1) * √D) • (‖d‖⁻¹ • d), q + (-δ + 1 * √D) • (‖d‖⁻¹ • d)} := by
  have hmem : ∀ t : ℝ, q + t • (‖d‖⁻¹ • d) ∈ Metric.sphere c r ↔ (t + δ) ^ 2 = D := by
    intro t; rw [line_sphere_iff c q _ (norm_unit hd) hr t, ← hδ, ← hD]
  have hs : √D ^ 2 = D := Real.sq_sqrt h0
  ext z
  rw [lineSet_unit q hd, Set.mem_inter_iff, Set.mem_insert_iff, Set.mem_singleton_iff]
  constructor
  · rintro ⟨hz, t, rfl⟩
    rw [hmem, ← hs] at hz
    rcases sq_eq_sq_iff_eq_or_eq_neg.mp hz with h1 | h1
    · right; congr 2; linarith
    · left; congr 2; linarith
  · rintro (rfl | rfl)
    · refine ⟨(hmem _).mpr ?_, _, rfl⟩
      linear_combination hs
    · refine ⟨(hmem _).mpr ?_, _, rfl⟩
      linear_combination hs

theorem chord_const {W r ρ : ℝ} (hW : 0 ≤ W) (hρ : 0 < ρ) (hρr : ρ ≤ r) :
    60 * (W + r) + 70 * ((W ^ 2 + r ^ 2) / ρ) ≤ 150 * ((W ^ 2 + r ^ 2) / ρ) := by
  have h1 : W + r ≤ 4 / 3 * ((W ^ 2 + r ^ 2) / ρ) := by
    rw [← mul_div_assoc, le_div_iff₀ hρ]
    have h2 : (W + r) * ρ ≤ (W + r) * r := mul_le_mul_of_nonneg_left hρr (by linarith)
    nlinarith [sq_nonneg (W - r), sq_nonneg W, sq_nonneg r]
  linarith

/-- How far the points for the rounded discriminant are from the sphere. -/
theorem chord_off {c q e : E n} (he : ‖e‖ = 1) {r W δ D D' b σ : ℝ} (hr : 0 < r) (hW : W = ‖q - c‖) (hδ : δ = inner ℝ e (q - c))
    (hD : D = δ ^ 2 - (W ^ 2 - r ^ 2)) (hb : |D' - D| ≤ b) (hD' : 0 ≤ D') (hσ : σ ^ 2 = 1) :
    |dist (q + (-δ + σ * √D') • e) c - r| ≤ b / r := by
  have h1 : dist (q + (-δ + σ * √D') • e) c ^ 2 = r ^ 2 + (D' - D) := by
    rw [dist_eq_norm, add_sub_right_comm, norm_add_sq_real, norm_smul, mul_pow, he, real_inner_smul_right, Real.norm_eq_abs,
      sq_abs, real_inner_comm, ← hδ, ← hW, hD]
    linear_combination (Real.sq_sqrt hD') + √D' ^ 2 * hσ
  obtain ⟨x, hx⟩ : ∃ x, x = dist (q + (-δ + σ * √D') • e) c := ⟨_, rfl⟩
  rw [← hx] at h1 ⊢
  have hx0 : 0 ≤ x := by rw [hx]; exact dist_nonneg
  rw [le_div_iff₀ hr]
  calc |x - r| * r ≤ |x - r| * (x + r) := mul_le_mul_of_nonneg_left (by linarith) (abs_nonneg _)
    _ = |x ^ 2 - r ^ 2| := by
      rw [show x ^ 2 - r ^ 2 = (x - r) * (x + r) by ring, abs_mul, abs_of_nonneg (by linarith : 0 ≤ x + r)]
    _ ≤ b := by rw [h1]; simpa using hb

theorem sqrt_diff {D D' b : ℝ} (hD : 0 < D) (hD' : 0 ≤ D') (hb : |D' - D| ≤ b) : |√D' - √D| ≤ b / √D := by
  have h1 := Real.sq_sqrt hD.le
  have h2 := Real.sq_sqrt hD'
  have h3 : 0 < √D := Real.sqrt_pos.mpr hD
  have h4 := Real.sqrt_nonneg D'
  rw [le_div_iff₀ h3]
  calc |√D' - √D| * √D ≤ |√D' - √D| * (√D' + √D) := mul_le_mul_of_nonneg_left (by linarith) (abs_nonneg _)
    _ = |D' - D| := by
      rw [← h1, ← h2, show √D' ^ 2 - √D ^ 2 = (√D' - √D) * (√D' + √D) by ring, abs_mul, abs_of_nonneg (by linarith : 0 ≤ √D' + √D),
        h1, h2]
    _ ≤ b := hb

/-- C110: `sphere.intersect_line(line)` under rounding.  Let `W` be the distance of the center from the line's point `q` and
`h` its distance from the line.

* If `r² + 70 u (W² + r²) < h²`, it raises.
* If `h² + 70 u (W² + r²) < r²`, it returns two points within `u (2 ‖q‖ + 150 (W² + r²) / √(r² - h²))` of the two exact ones.
* Whenever it returns, the points are within `u (2 ‖q‖ + 60 (W + r))` of the line and `u (2 ‖q‖ + 150 (W² + r²) / r)` of the
  sphere. -/
theorem C110_sphere_intersect_line (h : StdRounding u fl) (hu : u ≤ 1 / 10 ^ 5) {c q d : E 3} {r : ℝ} {S : Sphere ℝ} {L : Line ℝ}
    (hS : @Sphere.new ℝ (rounded fl) (arr c) r = .ok S) (hL : @Line.new ℝ (rounded fl) (arr q) (arr d) = .ok L) :
    (r ^ 2 + 70 * u * (dist q c ^ 2 + r ^ 2) < Metric.infDist c (lineSet q d) ^ 2 →
      @Sphere.intersectLine ℝ (rounded fl) S L = .error (.valueError "The line does not intersect the sphere.")) ∧
    (Metric.infDist c (lineSet q d) ^ 2 + 70 * u * (dist q c ^ 2 + r ^ 2) < r ^ 2 →
      ∃ y y' x x' : E 3, @Sphere.intersectLine ℝ (rounded fl) S L = .ok (arr y, arr y') ∧
        Metric.sphere c r ∩ lineSet q d = {x, x'} ∧
        dist y x ≤ u * (2 * ‖q‖ + 150 * ((dist q c ^ 2 + r ^ 2) / √(r ^ 2 - Metric.infDist c (lineSet q d) ^ 2))) ∧
        dist y' x' ≤ u * (2 * ‖q‖ + 150 * ((dist q c ^ 2 + r ^ 2) / √(r ^ 2 - Metric.infDist c (lineSet q d) ^ 2)))) ∧
    (∀ res, @Sphere.intersectLine ℝ (rounded fl) S L = .ok res → ∃ y y' : E 3, res = (arr y, arr y') ∧ ∀ z, z = y ∨ z = y' →
      Metric.infDist z (lineSet q d) ≤ u * (2 * ‖q‖ + 60 * (dist q c + r)) ∧
      |dist z c - r| ≤ u * (2 * ‖q‖ + 150 * ((dist q c ^ 2 + r ^ 2) / r))) := by
  have hu0 := h.nonneg
  have hu1 : u ≤ 1 / 100 := by norm_num at hu; linarith
  obtain ⟨hr, rfl⟩ := sphere_new_rd hS
  obtain ⟨hd, rfl⟩ := line_new_rd h (by linarith) hL
  have he := norm_unit hd
  rw [← chord_eq hd]
  have hset := fun D hD h0 => chord_set (c := c) (q := q) hd (D := D) hr.le rfl hD h0
  have hline := lineSet_unit q hd
  obtain ⟨e, hedef⟩ : ∃ e, e = ‖d‖⁻¹ • d := ⟨_, rfl⟩
  rw [← hedef] at he hset hline ⊢
  have hinf : ∀ t : ℝ, ∀ z : E 3, Metric.infDist z (lineSet q d) ≤ ‖z - (q + t • e)‖ := fun t z => by
    rw [← dist_eq_norm, hline]
    exact Metric.infDist_le_dist_of_mem ⟨t, rfl⟩
  obtain ⟨W, hW⟩ : ∃ W, W = ‖q - c‖ := ⟨_, rfl⟩
  obtain ⟨δ, hδ⟩ : ∃ δ : ℝ, δ = inner ℝ e (q - c) := ⟨_, rfl⟩
  obtain ⟨D, hD⟩ : ∃ D, D = δ ^ 2 - (W ^ 2 - r ^ 2) := ⟨_, rfl⟩
  have hW0 : 0 ≤ W := by rw [hW]; exact norm_nonneg _
  have hδW : |δ| ≤ W := by
    rw [hδ, hW]
    have := abs_real_inner_le_norm e (q - c)
    rwa [he, one_mul] at this
  have hinf2 : Metric.infDist c (lineSet q d) ^ 2 = r ^ 2 - D := by
    have := chord_eq (c := c) (q := q) hd r
    rw [← hedef, ← hδ, ← hW, ← hD] at this
    linarith
  rw [dist_eq_norm, ← hW, ← hδ, ← hD, hinf2]
  obtain ⟨v, hv, cv⟩ := from_crp h c q
  obtain ⟨z, hz, cz⟩ := unit_rd h d hd
  rw [← hedef, show (((3 : ℕ) : ℝ) + 5) / 2 = 4 by norm_num] at cz
  obtain ⟨d', hd'⟩ : ∃ x, x = @dotv ℝ (rounded fl) (arr z) (arr v) := ⟨_, rfl⟩
  have ed := h.dotv_abs' (by norm_num) (by norm_num) cz cv
  rw [← hd', he, one_mul, ← hW, ← hδ] at ed
  have ed' : |d' - δ| ≤ 18 * u * W := by
    refine ed.trans (mul_le_mul_of_nonneg_right ?_ hW0)
    rw [show (4 + 1 + 1 + (3 : ℕ) : ℝ) = 9 by norm_num]
    exact (exp_eps_le2 h (by norm_num) (by linarith)).trans (by linarith)
  obtain ⟨N, hN⟩ : ∃ x, x = @normv ℝ (rounded fl) (arr v) := ⟨_, rfl⟩
  have rN := h.normv_rp (by norm_num) cv
  rw [← hN, ← hW] at rN
  have eN : |N - W| ≤ 8 * u * W := by
    have := rN.abs_sub_le
    rw [abs_of_nonneg hW0] at this
    refine this.trans (mul_le_mul_of_nonneg_right ?_ hW0)
    rw [show (1 + ((3 : ℕ) + 3) / 2 : ℝ) = 4 by norm_num]
    exact (exp_eps_le2 h (by norm_num) (by linarith)).trans (by linarith)
  have eD := disc_const h hu hW0 hr.le hδW ed' eN
  rw [← hD] at eD
  obtain ⟨D', hD'⟩ : ∃ x, x = fl (fl (d' * d') - fl (fl (N * N) - fl (r * r))) := ⟨_, rfl⟩
  rw [← hD'] at eD
  have hDr : D ≤ r ^ 2 := by
    have := sq_le_sq' (abs_le.mp hδW).1 (abs_le.mp hδW).2
    rw [hD]; linarith
  have hval : 0 ≤ D' → ∃ y y' : E 3, @Sphere.intersectLine ℝ (rounded fl) ⟨arr c, r⟩ ⟨arr q, arr d⟩ = .ok (arr y, arr y') ∧
      ‖y - (q + (-δ + (-1) * √D') • e)‖ ≤ u * (2 * ‖q‖ + 60 * (W + r)) ∧
      ‖y' - (q + (-δ + 1 * √D') • e)‖ ≤ u * (2 * ‖q‖ + 60 * (W + r)) := by
    intro h0
    have hs := root_le (D := D') (b := 70 * u) hr.le hW0 (by norm_num at hu; linarith) (by
      have := (abs_le.mp eD).2; linarith)
    obtain ⟨y, hy, ey⟩ := line_point_rd (q := q) h hu he cz (-1) (by simp) hW0 hr.le (Real.sqrt_nonneg D') hs hδW ed'
    obtain ⟨y', hy', ey'⟩ := line_point_rd (q := q) h hu he cz 1 (by simp) hW0 hr.le (Real.sqrt_nonneg D') hs hδW ed'
    refine ⟨y, y', ?_, ey, ey'⟩
    rw [bind_ok_iff] at hy hy'
    obtain ⟨a, ha, hy⟩ := hy
    obtain ⟨a', ha', hy'⟩ := hy'
    simp only [Sphere.intersectLine, hv, ok_bind, hz, dot_rd, ← hd', Vec.norm, ← hN, sq_rd, sub_rd, ← hD', lt_rd, zero_rd,
      not_lt.mpr h0, decide_false, Bool.false_eq_true, if_false, mathSqrt, sqrt_rd, neg_rd, add_rd, mul_rd, ofInt_rd, Int.cast_neg,
      Int.cast_one, ha, ha', hy, hy', pure_ok]
  have hraise : D' < 0 → @Sphere.intersectLine ℝ (rounded fl) ⟨arr c, r⟩ ⟨arr q, arr d⟩ =
      .error (.valueError "The line does not intersect the sphere.") := by
    intro h0
    simp only [Sphere.intersectLine, hv, ok_bind, hz, dot_rd, ← hd', Vec.norm, ← hN, sq_rd, sub_rd, ← hD', lt_rd, zero_rd,
      h0, decide_true, if_true]
  refine ⟨fun hlt => hraise ?_, fun hlt => ?_, fun res hres => ?_⟩
  · have := (abs_le.mp eD).2; linarith
  · have hDp : 0 < D := by
      have : 0 ≤ 70 * u * (W ^ 2 + r ^ 2) := by positivity
      linarith
    have hD'0 : 0 ≤ D' := by have := (abs_le.mp eD).1; linarith
    obtain ⟨y, y', hy, ey, ey'⟩ := hval hD'0
    have hsq := sqrt_diff hDp hD'0 eD
    have hρ : 0 < √D := Real.sqrt_pos.mpr hDp
    have hρr : √D ≤ r := by rw [Real.sqrt_le_left hr.le]; exact hDr
    have hc := mul_le_mul_of_nonneg_left (chord_const hW0 hρ hρr) hu0
    refine ⟨y, y', _, _, hy, hset D (by rw [hD, hδ, hW]) hDp.le, ?_, ?_⟩
    all_goals
      rw [dist_eq_norm, ← hδ]
    · have e1 : y - (q + (-δ + (-1) * √D) • e) = (y - (q + (-δ + (-1) * √D') • e)) + (-(√D' - √D)) • e := by module
      rw [e1]
      refine (norm_add_le _ _).trans ?_
      rw [norm_smul, he, mul_one, Real.norm_eq_abs, abs_neg]
      rw [mul_div_assoc] at hsq
      linarith
    · have e1 : y' - (q + (-δ + 1 * √D) • e) = (y' - (q + (-δ + 1 * √D') • e)) + (√D' - √D) • e := by module
      rw [e1]
      refine (norm_add_le _ _).trans ?_
      rw [norm_smul, he, mul_one, Real.norm_eq_abs]
      rw [mul_div_assoc] at hsq
      linarith
  · have hD'0 : 0 ≤ D' := by
      by_contra hcon
      rw [hraise (not_le.mp hcon)] at hres
      cases hres
    obtain ⟨y, y', hy, ey, ey'⟩ := hval hD'0
    rw [hy] at hres
    refine ⟨y, y', (Except.ok.inj hres).symm, ?_⟩
    have hc := mul_le_mul_of_nonneg_left (chord_const hW0 hr le_rfl) hu0
    have key : ∀ (z : E 3) (σ : ℝ), σ ^ 2 = 1 → ‖z - (q + (-δ + σ * √D') • e)‖ ≤ u * (2 * ‖q‖ + 60 * (W + r)) →
        Metric.infDist z (lineSet q d) ≤ u * (2 * ‖q‖ + 60 * (W + r)) ∧
        |dist z c - r| ≤ u * (2 * ‖q‖ + 150 * ((W ^ 2 + r ^ 2) / r)) := by
      intro z σ hσ hz
      refine ⟨(hinf _ z).trans hz, ?_⟩
      have e1 := chord_off he hr hW hδ hD eD hD'0 hσ
      have e2 := abs_dist_sub_le z (q + (-δ + σ * √D') • e) c
      rw [dist_eq_norm z (q + _)] at e2
      have e3 := abs_add_le (dist z c - dist (q + (-δ + σ * √D') • e) c) (dist (q + (-δ + σ * √D') • e) c - r)
      rw [sub_add_sub_cancel] at e3
      rw [mul_div_assoc] at e1
      linarith
    rintro z (rfl | rfl)
    · exact key _ _ (by norm_num) ey
    · exact key _ _ (by norm_num) ey'

/-- A line through the center, and one at the distance 2 from it. -/
example : Metric.infDist (0 : E 3) (lineSet (vec3 (-2) 0 0) (vec3 1 0 0)) ^ 2 +
      70 * (2 : ℝ)⁻¹ ^ 53 * (dist (vec3 (-2) 0 0) 0 ^ 2 + 1 ^ 2) < 1 ^ 2 ∧
    1 ^ 2 + 70 * (2 : ℝ)⁻¹ ^ 53 * (dist (vec3 0 2 0) 0 ^ 2 + 1 ^ 2) < Metric.infDist (0 : E 3) (lineSet (vec3 0 2 0) (vec3 1 0 0)) ^ 2 := by
  have hd : vec3 1 0 0 ≠ 0 := fun h => by
    have := congrFun (congrArg WithLp.ofLp h) 0; simp [vec3] at this
  have h1 := chord_eq (c := 0) (q := vec3 (-2) 0 0) hd 1
  have h2 := chord_eq (c := 0) (q := vec3 0 2 0) hd 1
  have n1 : ‖vec3 1 0 0‖ = 1 := by rw [← sq_eq_sq₀ (norm_nonneg _) zero_le_one, norm_sq3]; simp [vec3]
  rw [sub_zero, n1, inv_one, one_smul, norm_sq3, inner3] at h1 h2
  rw [dist_zero_right, dist_zero_right, norm_sq3, norm_sq3]
  simp [vec3] at h1 h2 ⊢
  constructor <;> norm_num <;> linarith

/-! ## Circles -/

/-- The rounded difference of the two points of `circle.intersect_line`: the direction of the line, up to `21/10 η`. -/
theorem circ_dir (h : StdRounding u fl) {q c e z w H η W Q : ℝ} (hη : η = u * H) (hH : H = Q + W + 10) (hη1 : η ≤ 1 / 1000)
    (hQ : |q| ≤ Q) (hw : w = q - c) (hW : |w| ≤ W) (he : |e| ≤ 1) (hz : |z - e| ≤ 7 * u) :
    |fl (q - c) - w| ≤ u * W ∧ |fl (fl (q + z) - c) - (w + e)| ≤ 101 / 100 * η ∧
      |fl (fl (fl (q + z) - c) - fl (q - c)) - e| ≤ 21 / 10 * η := by
  have hu0 := h.nonneg
  have hQ0 : 0 ≤ Q := (abs_nonneg _).trans hQ
  have hW0 : 0 ≤ W := (abs_nonneg _).trans hW
  have hH0 : 10 ≤ H := by linarith
  have huη : 10 * u ≤ η := by rw [hη]; nlinarith
  have huQ := mul_nonneg hu0 hQ0
  have huW := mul_nonneg hu0 hW0
  have hηe : η = u * Q + u * W + 10 * u := by rw [hη, hH]; ring
  have huη2 : u * η ≤ 1 / 1000 * u := by rw [mul_comm]; exact mul_le_mul_of_nonneg_right hη1 hu0
  have h1 : |fl (q - c) - w| ≤ u * W := by
    have := h.err (q - c)
    rw [← hw] at this ⊢
    exact this.trans (mul_le_mul_of_nonneg_left hW hu0)
  have hqz : |(q + z) - (q + e)| ≤ 7 * u := by rw [add_sub_add_left_eq_sub]; exact hz
  have h2 := fl_near h hqz
  have hqe : |q + e| ≤ Q + 1 := (abs_add_le _ _).trans (add_le_add hQ he)
  have h3 : |fl (q + z) - (q + e)| ≤ u * Q + 81 / 10 * u := by
    refine h2.trans ?_
    have e1 := mul_le_mul_of_nonneg_left hqe hu0
    have e2 : u * (7 * u) ≤ 1 / 100 * u := by
      have : 7 * u ≤ 1 / 100 := by linarith
      have := mul_le_mul_of_nonneg_left this hu0
      linarith
    linarith
  have h4 : |(fl (q + z) - c) - (w + e)| ≤ u * Q + 81 / 10 * u := by
    rw [hw, show fl (q + z) - c - (q - c + e) = fl (q + z) - (q + e) by ring]; exact h3
  have hwe : |w + e| ≤ W + 1 := (abs_add_le _ _).trans (add_le_add hW he)
  have h5 : |fl (fl (q + z) - c) - (w + e)| ≤ 101 / 100 * η := by
    refine (fl_near h h4).trans ?_
    have e1 := mul_le_mul_of_nonneg_left hwe hu0
    have e2 : u * (u * Q + 81 / 10 * u) ≤ u * η := mul_le_mul_of_nonneg_left (by linarith) hu0
    linarith
  refine ⟨h1, h5, ?_⟩
  have h6 : |(fl (fl (q + z) - c) - fl (q - c)) - e| ≤ 101 / 100 * η + u * W := by
    rw [show fl (fl (q + z) - c) - fl (q - c) - e = (fl (fl (q + z) - c) - (w + e)) - (fl (q - c) - w) by ring]
    exact (abs_sub _ _).trans (add_le_add h5 h1)
  refine (fl_near h h6).trans ?_
  have e1 := mul_le_mul_of_nonneg_left he hu0
  have e2 : u * (101 / 100 * η + u * W) ≤ 3 * (u * η) := by
    have : 101 / 100 * η + u * W ≤ 3 * η := by linarith
    have := mul_le_mul_of_nonneg_left this hu0
    linarith
  linarith

/-- The squared length of the rounded direction. -/
theorem circ_len (h : StdRounding u fl) {dx dy e0 e1 η : ℝ} (huη : 10 * u ≤ η) (hη1 : η ≤ 1 / 1000)
    (he : e0 ^ 2 + e1 ^ 2 = 1) (hdx : |dx - e0| ≤ 21 / 10 * η) (hdy : |dy - e1| ≤ 21 / 10 * η) :
    |fl (fl (dx * dx) + fl (dy * dy)) - 1| ≤ 9 * η := by
  have hu0 := h.nonneg
  have hη0 : 0 ≤ η := by linarith
  have h0 : |e0| ≤ 1 := by rw [← sq_le_one_iff_abs_le_one]; nlinarith [sq_nonneg e1]
  have h1 : |e1| ≤ 1 := by rw [← sq_le_one_iff_abs_le_one]; nlinarith [sq_nonneg e0]
  have hηη : η * η ≤ 1 / 1000 * η := mul_le_mul_of_nonneg_right hη1 hη0
  have huη2 : u * η ≤ 1 / 10000 * η := mul_le_mul_of_nonneg_right (by linarith) hη0
  have huηη : u * (η * η) ≤ 1 / 1000 * (u * η) := by
    have := mul_le_mul_of_nonneg_left hηη hu0; linarith
  have key : ∀ d e : ℝ, |e| ≤ 1 → |d - e| ≤ 21 / 10 * η → |fl (d * d) - e * e| ≤ 432 / 100 * η := by
    intro d e he' hde
    refine (fl_mul_near h hde hde he' he').trans ?_
    have : 21 / 10 * η * 1 + 1 * (21 / 10 * η) + 21 / 10 * η * (21 / 10 * η) +
        u * (1 * 1 + (21 / 10 * η * 1 + 1 * (21 / 10 * η) + 21 / 10 * η * (21 / 10 * η))) =
        42 / 10 * η + 441 / 100 * (η * η) + u + 42 / 10 * (u * η) + 441 / 100 * (u * (η * η)) := by ring
    rw [this]
    linarith
  have hs : |fl (dx * dx) + fl (dy * dy) - 1| ≤ 864 / 100 * η := by
    rw [← he, show fl (dx * dx) + fl (dy * dy) - (e0 ^ 2 + e1 ^ 2) = (fl (dx * dx) - e0 * e0) + (fl (dy * dy) - e1 * e1) by ring]
    refine (abs_add_le _ _).trans ?_
    linarith [key dx e0 h0 hdx, key dy e1 h1 hdy]
  refine (fl_near h hs).trans ?_
  rw [abs_one, show u * (1 + 864 / 100 * η) = u + 864 / 100 * (u * η) by ring]
  linarith

/-- The rounded determinant of the two points. -/
theorem circ_det (h : StdRounding u fl) {x1 y1 x2 y2 w0 w1 e0 e1 η W : ℝ} (huη : 10 * u ≤ η) (hη1 : η ≤ 1 / 1000)
    (hη : u * (W + 1) ≤ η) (hW : 0 ≤ W) (hw0 : |w0| ≤ W) (hw1 : |w1| ≤ W) (he0 : |e0| ≤ 1) (he1 : |e1| ≤ 1)
    (hk : |w0 * e1 - w1 * e0| ≤ W) (hx1 : |x1 - w0| ≤ u * W) (hy1 : |y1 - w1| ≤ u * W)
    (hx2 : |x2 - (w0 + e0)| ≤ 101 / 100 * η) (hy2 : |y2 - (w1 + e1)| ≤ 101 / 100 * η) :
    |fl (fl (x1 * y2) - fl (x2 * y1)) - (w0 * e1 - w1 * e0)| ≤ 63 / 10 * (W * η) := by
  have hu0 := h.nonneg
  have hη0 : 0 ≤ η := by linarith
  have hWη : 0 ≤ W * η := mul_nonneg hW hη0
  have huη2 : u * η ≤ 1 / 1000 * u := by rw [mul_comm]; exact mul_le_mul_of_nonneg_right hη1 hu0
  have huW : u * (W * (W + 1)) ≤ W * η := by
    have := mul_le_mul_of_nonneg_left hη hW; linarith
  have huWη : u * (W * η) ≤ 1 / 10000 * (W * η) := mul_le_mul_of_nonneg_right (by linarith) hWη
  have huW2 : u * (u * (W * (W + 1))) ≤ 1 / 10000 * (W * η) :=
    (mul_le_mul_of_nonneg_left huW hu0).trans huWη
  have huuWη : u * (u * (W * η)) ≤ 1 / 10000 * (W * η) := by
    refine (mul_le_mul_of_nonneg_left huWη hu0).trans ?_
    have : u * (1 / 10000 * (W * η)) = 1 / 10000 * (u * (W * η)) := by ring
    rw [this]; linarith
  have key : ∀ a b x y : ℝ, |a| ≤ W → |b| ≤ W + 1 → |x - a| ≤ u * W → |y - b| ≤ 101 / 100 * η →
      |fl (x * y) - a * b| ≤ 305 / 100 * (W * η) := by
    intro a b x y ha hb hx hy
    refine (fl_mul_near h hx hy ha hb).trans ?_
    have : u * W * (W + 1) + W * (101 / 100 * η) + u * W * (101 / 100 * η) +
        u * (W * (W + 1) + (u * W * (W + 1) + W * (101 / 100 * η) + u * W * (101 / 100 * η))) =
        2 * (u * (W * (W + 1))) + 101 / 100 * (W * η) + 202 / 100 * (u * (W * η)) + u * (u * (W * (W + 1))) +
          101 / 100 * (u * (u * (W * η))) := by ring
    rw [this]
    linarith
  have hb1 : |w1 + e1| ≤ W + 1 := (abs_add_le _ _).trans (add_le_add hw1 he1)
  have hb0 : |w0 + e0| ≤ W + 1 := (abs_add_le _ _).trans (add_le_add hw0 he0)
  have k1 := key w0 (w1 + e1) x1 y2 hw0 hb1 hx1 hy2
  have k2 := key w1 (w0 + e0) y1 x2 hw1 hb0 hy1 hx2
  rw [mul_comm y1 x2] at k2
  have hs : |fl (x1 * y2) - fl (x2 * y1) - (w0 * e1 - w1 * e0)| ≤ 610 / 100 * (W * η) := by
    rw [show fl (x1 * y2) - fl (x2 * y1) - (w0 * e1 - w1 * e0) =
      (fl (x1 * y2) - w0 * (w1 + e1)) - (fl (x2 * y1) - w1 * (w0 + e0)) by ring]
    refine (abs_sub _ _).trans ?_
    linarith
  refine (fl_near h hs).trans ?_
  have e1 := mul_le_mul_of_nonneg_left hk hu0
  have e2 : 10 * u * W ≤ η * W := mul_le_mul_of_nonneg_right huη hW
  rw [mul_add]
  linarith

/-- The rounded discriminant of `circle.intersect_line`. -/
theorem circ_disc (h : StdRounding u fl) {det k L r W η : ℝ} (huη : 10 * u ≤ η) (hη1 : η ≤ 1 / 1000) (hW : 0 ≤ W)
    (hk : |k| ≤ W) (hdet : |det - k| ≤ 63 / 10 * (W * η)) (hL : |L - 1| ≤ 9 * η) :
    |fl (fl (fl (r * r) * L) - fl (det * det)) - (r ^ 2 - k ^ 2)| ≤ 13 * η * (W ^ 2 + r ^ 2) := by
  have hu0 := h.nonneg
  have hη0 : 0 ≤ η := by linarith
  obtain ⟨X, hX⟩ : ∃ X, X = η * W ^ 2 := ⟨_, rfl⟩
  obtain ⟨Y, hY⟩ : ∃ Y, Y = η * r ^ 2 := ⟨_, rfl⟩
  have hX0 : 0 ≤ X := by rw [hX]; positivity
  have hY0 : 0 ≤ Y := by rw [hY]; positivity
  have hWW : u * W ^ 2 ≤ 1 / 10 * X := by
    rw [hX]; have := mul_le_mul_of_nonneg_right huη (sq_nonneg W); linarith
  have hrr : u * r ^ 2 ≤ 1 / 10 * Y := by
    rw [hY]; have := mul_le_mul_of_nonneg_right huη (sq_nonneg r); linarith
  have hu1 : u ≤ 1 / 10000 := by linarith
  have hηX : η * X ≤ 1 / 1000 * X := mul_le_mul_of_nonneg_right hη1 hX0
  have hηY : η * Y ≤ 1 / 1000 * Y := mul_le_mul_of_nonneg_right hη1 hY0
  have huX : u * X ≤ 1 / 10000 * X := mul_le_mul_of_nonneg_right hu1 hX0
  have huY : u * Y ≤ 1 / 10000 * Y := mul_le_mul_of_nonneg_right hu1 hY0
  have huηX : u * (η * X) ≤ 1 / 10000 * X := by
    have h1 := mul_le_mul_of_nonneg_left hηX hu0
    have h2 : u * (1 / 1000 * X) = 1 / 1000 * (u * X) := by ring
    linarith
  have huur : u * (u * r ^ 2) ≤ 1 / 10000 * Y := by
    have h1 := mul_le_mul_of_nonneg_left hrr hu0
    have h2 : u * (1 / 10 * Y) = 1 / 10 * (u * Y) := by ring
    linarith
  have huuY : u * (u * Y) ≤ 1 / 10000 * Y := by
    have h1 := mul_le_mul_of_nonneg_left huY hu0
    have h2 : u * (1 / 10000 * Y) = 1 / 10000 * (u * Y) := by ring
    linarith
  have b1 : |fl (det * det) - k * k| ≤ 128 / 10 * X := by
    refine (fl_mul_near h hdet hdet hk hk).trans ?_
    have : 63 / 10 * (W * η) * W + W * (63 / 10 * (W * η)) + 63 / 10 * (W * η) * (63 / 10 * (W * η)) +
        u * (W * W + (63 / 10 * (W * η) * W + W * (63 / 10 * (W * η)) + 63 / 10 * (W * η) * (63 / 10 * (W * η)))) =
        126 / 10 * X + 3969 / 100 * (η * X) + u * W ^ 2 + 126 / 10 * (u * X) + 3969 / 100 * (u * (η * X)) := by rw [hX]; ring
    rw [this]
    linarith
  have b2 : |fl (r * r) - r * r| ≤ u * r ^ 2 := by
    have := h.err (r * r)
    rw [abs_of_nonneg (mul_self_nonneg r)] at this
    rw [pow_two]; exact this
  have b3 : |fl (fl (r * r) * L) - r * r * 1| ≤ 94 / 10 * Y := by
    have hr2 : |r * r| ≤ r ^ 2 := by rw [← pow_two, abs_of_nonneg (sq_nonneg r)]
    refine (fl_mul_near h b2 hL hr2 (by rw [abs_one])).trans ?_
    have : u * r ^ 2 * 1 + r ^ 2 * (9 * η) + u * r ^ 2 * (9 * η) +
        u * (r ^ 2 * 1 + (u * r ^ 2 * 1 + r ^ 2 * (9 * η) + u * r ^ 2 * (9 * η))) =
        2 * (u * r ^ 2) + 9 * Y + 18 * (u * Y) + u * (u * r ^ 2) + 9 * (u * (u * Y)) := by rw [hY]; ring
    rw [this]
    linarith
  have hkk : |k * k| ≤ W ^ 2 := by rw [abs_mul, pow_two]; exact mul_le_mul hk hk (abs_nonneg _) hW
  have hr1 : |r * r * 1| ≤ r ^ 2 := by rw [mul_one, ← pow_two, abs_of_nonneg (sq_nonneg r)]
  have b4 := fl_sub_near h b3 b1 hr1 hkk
  rw [show r ^ 2 - k ^ 2 = r * r * 1 - k * k by ring]
  refine b4.trans ?_
  rw [show 13 * η * (W ^ 2 + r ^ 2) = 13 * X + 13 * Y by rw [hX, hY]; ring,
    show u * (r ^ 2 + W ^ 2 + 94 / 10 * Y + 128 / 10 * X) = u * r ^ 2 + u * W ^ 2 + 94 / 10 * (u * Y) + 128 / 10 * (u * X) by ring]
  linarith

/-- One coordinate of a point returned by `circle.intersect_line`. -/
theorem circ_coord (h : StdRounding u fl) {a a0 f f0 g g0 s L c V W η : ℝ} (huη : 10 * u ≤ η) (hη1 : η ≤ 1 / 1000)
    (hW : 0 ≤ W) (hWV : W ≤ V) (ha0 : |a0| ≤ W) (ha : |a - a0| ≤ 63 / 10 * (W * η)) (hf0 : |f0| ≤ 1) (hf : |f - f0| ≤ 21 / 10 * η)
    (hg0 : |g0| ≤ 1) (hg : |g - g0| ≤ 24 / 10 * η) (hs : 0 ≤ s) (hsV : s ≤ 11 / 10 * V) (hL : |L - 1| ≤ 9 * η) :
    |fl (fl (fl (fl (a * f) + fl (g * fl s)) / L) + c) - (c + (a0 * f0 + g0 * s))| ≤ u * |c| + 32 * (V * η) := by
  have hu0 := h.nonneg
  have hη0 : 0 ≤ η := by linarith
  have hV0 : 0 ≤ V := by linarith
  obtain ⟨T, hT⟩ : ∃ T, T = V * η := ⟨_, rfl⟩
  have hT0 : 0 ≤ T := by rw [hT]; positivity
  rw [← hT]
  have hu1 : u ≤ 1 / 10000 := by linarith
  have hWT : W * η ≤ T := by rw [hT]; exact mul_le_mul_of_nonneg_right hWV hη0
  have huV : u * V ≤ 1 / 10 * T := by rw [hT]; have := mul_le_mul_of_nonneg_right huη hV0; linarith
  have huT : u * T ≤ 1 / 10000 * T := mul_le_mul_of_nonneg_right hu1 hT0
  have hηT : η * T ≤ 1 / 1000 * T := mul_le_mul_of_nonneg_right hη1 hT0
  have huηT : u * (η * T) ≤ 1 / 1000 * (u * T) := by
    have := mul_le_mul_of_nonneg_left hηT hu0; linarith
  have haV : |a0| ≤ V := ha0.trans hWV
  have ha' : |a - a0| ≤ 63 / 10 * T := ha.trans (by linarith)
  have b1 : |fl (a * f) - a0 * f0| ≤ 86 / 10 * T := by
    refine (fl_mul_near h ha' hf haV hf0).trans ?_
    have : 63 / 10 * T * 1 + V * (21 / 10 * η) + 63 / 10 * T * (21 / 10 * η) +
        u * (V * 1 + (63 / 10 * T * 1 + V * (21 / 10 * η) + 63 / 10 * T * (21 / 10 * η))) =
        84 / 10 * T + 1323 / 100 * (η * T) + u * V + 84 / 10 * (u * T) + 1323 / 100 * (u * (η * T)) := by rw [hT]; ring
    rw [this]
    linarith
  have hs' : |s| ≤ 11 / 10 * V := by rw [abs_of_nonneg hs]; exact hsV
  have e0 : |fl s - s| ≤ 11 / 100 * T := by
    refine (h.err s).trans ?_
    have := mul_le_mul_of_nonneg_left hs' hu0
    linarith
  have b2 : |fl (g * fl s) - g0 * s| ≤ 29 / 10 * T := by
    refine (fl_mul_near h hg e0 hg0 hs').trans ?_
    have : 24 / 10 * η * (11 / 10 * V) + 1 * (11 / 100 * T) + 24 / 10 * η * (11 / 100 * T) +
        u * (1 * (11 / 10 * V) + (24 / 10 * η * (11 / 10 * V) + 1 * (11 / 100 * T) + 24 / 10 * η * (11 / 100 * T))) =
        275 / 100 * T + 264 / 1000 * (η * T) + 11 / 10 * (u * V) + 275 / 100 * (u * T) + 264 / 1000 * (u * (η * T)) := by rw [hT]; ring
    rw [this]
    linarith
  have m1 : |a0 * f0| ≤ V := by
    rw [abs_mul]; have := mul_le_mul haV hf0 (abs_nonneg _) hV0; linarith
  have m2 : |g0 * s| ≤ 11 / 10 * V := by
    rw [abs_mul]; have := mul_le_mul hg0 hs' (abs_nonneg _) zero_le_one; linarith
  have b3 := fl_add_near h b1 b2 m1 m2
  obtain ⟨X, hX⟩ : ∃ X, X = a0 * f0 + g0 * s := ⟨_, rfl⟩
  obtain ⟨X', hX'⟩ : ∃ X', X' = fl (fl (a * f) + fl (g * fl s)) := ⟨_, rfl⟩
  rw [← hX, ← hX'] at b3
  rw [← hX, ← hX']
  have hXV : |X| ≤ 21 / 10 * V := by rw [hX]; refine (abs_add_le _ _).trans ?_; linarith
  have b3' : |X' - X| ≤ 118 / 10 * T := by
    refine b3.trans ?_
    rw [show u * (V + 11 / 10 * V + 86 / 10 * T + 29 / 10 * T) = 21 / 10 * (u * V) + 115 / 10 * (u * T) by ring]
    linarith
  have hLp : 99 / 100 ≤ L := by have := (abs_le.mp hL).1; linarith
  have b4 : |X' / L - X| ≤ 311 / 10 * T := by
    rw [show X' / L - X = ((X' - X) - X * (L - 1)) / L by field_simp; ring, abs_div, abs_of_pos (by linarith : 0 < L),
      div_le_iff₀ (by linarith)]
    refine (abs_sub _ _).trans ?_
    rw [abs_mul]
    have e1 := mul_le_mul hXV hL (abs_nonneg _) (by positivity)
    have e2 : 21 / 10 * V * (9 * η) = 189 / 10 * T := by rw [hT]; ring
    have e3 : 311 / 10 * T * (99 / 100) ≤ 311 / 10 * T * L := mul_le_mul_of_nonneg_left hLp (by positivity)
    linarith
  have b5 : |fl (X' / L) - X| ≤ 314 / 10 * T := by
    refine (fl_near h b4).trans ?_
    have := mul_le_mul_of_nonneg_left hXV hu0
    rw [mul_add]
    linarith
  have b6 : |(fl (X' / L) + c) - (c + X)| ≤ 314 / 10 * T := by
    rw [show fl (X' / L) + c - (c + X) = fl (X' / L) - X by ring]; exact b5
  refine (fl_near h b6).trans ?_
  have e1 : |c + X| ≤ |c| + 21 / 10 * V := (abs_add_le _ _).trans (by linarith)
  have e2 := mul_le_mul_of_nonneg_left e1 hu0
  rw [mul_add]
  rw [mul_add] at e2
  linarith

theorem norm_le_two {x : E 2} {a : ℝ} {b0 b1 : ℝ} (h0 : |x 0| ≤ b0 + a) (h1 : |x 1| ≤ b1 + a) : ‖x‖ ≤ b0 + b1 + 2 * a := by
  refine le_trans ?_ (by linarith : |x 0| + |x 1| ≤ b0 + b1 + 2 * a)
  refine le_of_sq_le_sq ?_ (by positivity)
  rw [norm_sq2, ← sq_abs (x 0), ← sq_abs (x 1)]
  nlinarith [abs_nonneg (x 0), abs_nonneg (x 1)]

theorem coord_sum2 (c : E 2) : |c 0| + |c 1| ≤ 3 / 2 * ‖c‖ := by
  refine le_of_sq_le_sq ?_ (by positivity)
  rw [mul_pow, norm_sq2, ← sq_abs (c 0), ← sq_abs (c 1)]
  nlinarith [sq_nonneg (|c 0| - |c 1|), sq_nonneg |c 0|, sq_nonneg |c 1|]

theorem coord_le (x : E n) (i : Fin n) : |x i| ≤ ‖x‖ := by
  have := EuclideanSpace.norm_sq_eq x
  refine le_of_sq_le_sq ?_ (norm_nonneg x)
  rw [this, sq_abs]
  have := Finset.single_le_sum (f := fun i => ‖x i‖ ^ 2) (fun i _ => by positivity) (Finset.mem_univ i)
  simpa using this

theorem chord_const2 {W r ρ : ℝ} (hW : 0 ≤ W) (hρ : 0 < ρ) (hρr : ρ ≤ r) :
    64 * (W + r) + 13 * ((W ^ 2 + r ^ 2) / ρ) ≤ 100 * ((W ^ 2 + r ^ 2) / ρ) := by
  have := chord_const hW hρ hρr
  have h0 : 0 ≤ (W ^ 2 + r ^ 2) / ρ := by positivity
  linarith

/-- The two points returned by `circle.intersect_line`, against the points of the line with the exact parameters for the
rounded root. -/
theorem circ_points (h : StdRounding u fl) {c q e w : E 2} {H η W V L det s k δ : ℝ} {a b : ℝ} (hη : η = u * H)
    (hH : H = ‖q‖ + W + 10) (hη1 : η ≤ 1 / 1000) (hW0 : 0 ≤ W) (hWV : W ≤ V) (hw : w = q - c) (he : ‖e‖ = 1)
    (hδ : δ = inner ℝ e w) (hk : k = w 0 * e 1 - w 1 * e 0) (hkW : |k| ≤ W) (ea : |a - e 0| ≤ 21 / 10 * η) (eb : |b - e 1| ≤ 21 / 10 * η)
    (hs0 : 0 ≤ s) (hs : s ≤ 11 / 10 * V) (edet : |det - k| ≤ 63 / 10 * (W * η)) (eL : |L - 1| ≤ 9 * η)
    (mp sg : ℝ) (hmp : |mp| = 1) (hsg : sg = if b < 0 then -1 else 1) :
    ∃ y : E 2, arr y = [fl (fl (fl (fl (det * b) + fl (fl (fl (mp * sg) * a) * fl s)) / L) + c 0),
      fl (fl (fl (fl (-det * a) + fl (fl (mp * |b|) * fl s)) / L) + c 1)] ∧
      ‖y - (q + (-δ + mp * sg * s) • e)‖ ≤ 2 * u * ‖c‖ + 64 * (V * η) := by
  have hu0 := h.nonneg
  have huη : 10 * u ≤ η := by rw [hη, hH]; nlinarith [mul_nonneg hu0 (norm_nonneg q), mul_nonneg hu0 hW0]
  have hη0 : 0 ≤ η := by linarith
  have hsg1 : |sg| = 1 := by rw [hsg]; split_ifs <;> simp
  have hbs : |b| = sg * b := by
    rw [hsg]
    split_ifs with hb
    · rw [abs_of_neg hb]; ring
    · rw [abs_of_nonneg (not_lt.mp hb)]; ring
  have he0 : |e 0| ≤ 1 := by have := coord_le e 0; rwa [he] at this
  have he1 : |e 1| ≤ 1 := by have := coord_le e 1; rwa [he] at this
  have hms : |mp * sg| = 1 := by rw [abs_mul, hmp, hsg1, one_mul]
  have hu1 : u ≤ 1 / 10000 := by linarith
  have huη2 : u * η ≤ 1 / 10000 * η := mul_le_mul_of_nonneg_right hu1 hη0
  have huuη : u * (u * η) ≤ 1 / 10000 * (u * η) := mul_le_mul_of_nonneg_right hu1 (by positivity)
  have huu : u * u ≤ 1 / 10000 * u := mul_le_mul_of_nonneg_right hu1 hu0
  have em : |fl (mp * sg) - mp * sg| ≤ u := by
    have := h.err (mp * sg); rwa [hms, mul_one] at this
  have g1 : |fl (fl (mp * sg) * a) - mp * sg * e 0| ≤ 24 / 10 * η := by
    refine (fl_mul_near h em ea hms.le he0).trans ?_
    have : u * 1 + 1 * (21 / 10 * η) + u * (21 / 10 * η) + u * (1 * 1 + (u * 1 + 1 * (21 / 10 * η) + u * (21 / 10 * η))) =
      2 * u + 21 / 10 * η + 42 / 10 * (u * η) + u * u + 21 / 10 * (u * (u * η)) := by ring
    rw [this]
    linarith
  have g2 : |fl (mp * |b|) - mp * sg * e 1| ≤ 24 / 10 * η := by
    have h1 : |mp * |b| - mp * sg * e 1| ≤ 21 / 10 * η := by
      rw [hbs, show mp * (sg * b) - mp * sg * e 1 = mp * sg * (b - e 1) by ring, abs_mul, hms, one_mul]; exact eb
    refine (fl_near h h1).trans ?_
    have h2 : |mp * sg * e 1| ≤ 1 := by rw [abs_mul, hms, one_mul]; exact he1
    have h3 := mul_le_mul_of_nonneg_left h2 hu0
    rw [mul_add]
    linarith
  have n1 : |mp * sg * e 0| ≤ 1 := by rw [abs_mul, hms, one_mul]; exact he0
  have n2 : |mp * sg * e 1| ≤ 1 := by rw [abs_mul, hms, one_mul]; exact he1
  have c1 := circ_coord h (c := c 0) huη hη1 hW0 hWV hkW edet he1 eb n1 g1 hs0 hs eL
  have c2 := circ_coord h (a := -det) (a0 := -k) (c := c 1) huη hη1 hW0 hWV (by rw [abs_neg]; exact hkW)
    (by rw [← neg_sub', abs_neg]; exact edet) he0 ea n2 g2 hs0 hs eL
  obtain ⟨Y0, hY0⟩ : ∃ Y, Y = fl (fl (fl (fl (det * b) + fl (fl (fl (mp * sg) * a) * fl s)) / L) + c 0) := ⟨_, rfl⟩
  obtain ⟨Y1, hY1⟩ : ∃ Y, Y = fl (fl (fl (fl (-det * a) + fl (fl (mp * |b|) * fl s)) / L) + c 1) := ⟨_, rfl⟩
  rw [← hY0] at c1 ⊢
  rw [← hY1] at c2 ⊢
  refine ⟨vec2 Y0 Y1, by rw [arr_vec2], ?_⟩
  have hee : e 0 ^ 2 + e 1 ^ 2 = 1 := by rw [← norm_sq2, he, one_pow]
  have hδ' : δ = e 0 * w 0 + e 1 * w 1 := by rw [hδ, inner2]
  have hw0 : w 0 = q 0 - c 0 := by rw [hw]; rfl
  have hw1 : w 1 = q 1 - c 1 := by rw [hw]; rfl
  have p0 : (q + (-δ + mp * sg * s) • e) 0 = c 0 + (k * e 1 + mp * sg * e 0 * s) := by
    show q 0 + (-δ + mp * sg * s) * e 0 = _
    rw [hδ', hk]
    linear_combination (-w 0) * hee - hw0
  have p1 : (q + (-δ + mp * sg * s) • e) 1 = c 1 + (-k * e 0 + mp * sg * e 1 * s) := by
    show q 1 + (-δ + mp * sg * s) * e 1 = _
    rw [hδ', hk]
    linear_combination (-w 1) * hee - hw1
  have := norm_le_two (x := vec2 Y0 Y1 - (q + (-δ + mp * sg * s) • e)) (a := 32 * (V * η)) (b0 := u * |c 0|) (b1 := u * |c 1|)
    (by show |Y0 - (q + (-δ + mp * sg * s) • e) 0| ≤ _; rw [p0]; exact c1)
    (by show |Y1 - (q + (-δ + mp * sg * s) • e) 1| ≤ _; rw [p1]; exact c2)
  have hcs := mul_le_mul_of_nonneg_left (coord_sum2 c) hu0
  have hc0 := mul_nonneg hu0 (norm_nonneg c)
  linarith

theorem arr_two (x : E 2) : arr x = [x 0, x 1] := by simp [arr, List.ofFn_succ]

/-- C110: `circle.intersect_line(line)` under rounding.  The code adds the unit direction to the line's point `q`, so that the
error depends on the coordinates themselves: let `W` be the distance of the center `c` from `q`, `h` its distance from the line,
and `η = u (‖q‖ + W + 10)`, assumed to be at most `1/1000`.

* If `r² + 13 η (W² + r²) < h²`, it raises.
* If `h² + 13 η (W² + r²) < r²`, it returns two points within `2 u ‖c‖ + 100 η (W² + r²) / √(r² - h²)` of the two exact ones.
* Whenever it returns, the points are within `2 u ‖c‖ + 64 η (W + r)` of the line and `2 u ‖c‖ + 100 η (W² + r²) / r` of the
  circle. -/
theorem C110_circle_intersect_line (h : StdRounding u fl) {c q d : E 2} {r : ℝ} {C : Circle ℝ} {L : Line ℝ}
    (hC : @Circle.new ℝ (rounded fl) (arr c) r = .ok C) (hL : @Line.new ℝ (rounded fl) (arr q) (arr d) = .ok L)
    {η : ℝ} (hη : η = u * (‖q‖ + dist q c + 10)) (hη1 : η ≤ 1 / 1000) :
    (r ^ 2 + 13 * η * (dist q c ^ 2 + r ^ 2) < Metric.infDist c (lineSet q d) ^ 2 →
      @Circle.intersectLine ℝ (rounded fl) C L = .error (.valueError "The line does not intersect the circle.")) ∧
    (Metric.infDist c (lineSet q d) ^ 2 + 13 * η * (dist q c ^ 2 + r ^ 2) < r ^ 2 →
      ∃ y y' x x' : E 2, @Circle.intersectLine ℝ (rounded fl) C L = .ok (arr y, arr y') ∧
        Metric.sphere c r ∩ lineSet q d = {x, x'} ∧
        dist y x ≤ 2 * u * ‖c‖ + 100 * η * ((dist q c ^ 2 + r ^ 2) / √(r ^ 2 - Metric.infDist c (lineSet q d) ^ 2)) ∧
        dist y' x' ≤ 2 * u * ‖c‖ + 100 * η * ((dist q c ^ 2 + r ^ 2) / √(r ^ 2 - Metric.infDist c (lineSet q d) ^ 2))) ∧
    (∀ res, @Circle.intersectLine ℝ (rounded fl) C L = .ok res → ∃ y y' : E 2, res = (arr y, arr y') ∧ ∀ z, z = y ∨ z = y' →
      Metric.infDist z (lineSet q d) ≤ 2 * u * ‖c‖ + 64 * η * (dist q c + r) ∧
      |dist z c - r| ≤ 2 * u * ‖c‖ + 100 * η * ((dist q c ^ 2 + r ^ 2) / r)) := by
  have hu0 := h.nonneg
  obtain ⟨W, hW⟩ : ∃ W, W = ‖q - c‖ := ⟨_, rfl⟩
  have hW0 : 0 ≤ W := by rw [hW]; exact norm_nonneg _
  rw [dist_eq_norm, ← hW] at hη
  obtain ⟨H, hH⟩ : ∃ H, H = ‖q‖ + W + 10 := ⟨_, rfl⟩
  rw [← hH] at hη
  have hQ0 := norm_nonneg q
  have huη : 10 * u ≤ η := by rw [hη, hH]; nlinarith [mul_nonneg hu0 (norm_nonneg q), mul_nonneg hu0 hW0]
  have hη0 : 0 ≤ η := by linarith
  obtain ⟨hr, rfl⟩ := circle_new_rd hC
  obtain ⟨hd, rfl⟩ := line_new_rd h (by linarith) hL
  have he := norm_unit hd
  rw [← chord_eq hd]
  have hset := fun D hD h0 => chord_set (c := c) (q := q) hd (D := D) hr.le rfl hD h0
  have hline := lineSet_unit q hd
  have hchord := chord_eq (c := c) (q := q) hd r
  obtain ⟨z, hz, cz⟩ := unit_rd h d hd
  obtain ⟨e, hedef⟩ : ∃ e, e = ‖d‖⁻¹ • d := ⟨_, rfl⟩
  rw [← hedef] at he hset hline hchord cz ⊢
  have hinf : ∀ t : ℝ, ∀ z : E 2, Metric.infDist z (lineSet q d) ≤ ‖z - (q + t • e)‖ := fun t z => by
    rw [← dist_eq_norm, hline]
    exact Metric.infDist_le_dist_of_mem ⟨t, rfl⟩
  obtain ⟨w, hw⟩ : ∃ w, w = q - c := ⟨_, rfl⟩
  obtain ⟨δ, hδ⟩ : ∃ δ : ℝ, δ = inner ℝ e w := ⟨_, rfl⟩
  obtain ⟨k, hk⟩ : ∃ k, k = w 0 * e 1 - w 1 * e 0 := ⟨_, rfl⟩
  obtain ⟨D, hD⟩ : ∃ D, D = δ ^ 2 - (W ^ 2 - r ^ 2) := ⟨_, rfl⟩
  rw [← hw] at hW
  have hee : e 0 ^ 2 + e 1 ^ 2 = 1 := by rw [← norm_sq2, he, one_pow]
  have hδk : δ ^ 2 + k ^ 2 = W ^ 2 := by
    rw [hδ, inner2, hk, hW, norm_sq2]
    linear_combination (w 0 ^ 2 + w 1 ^ 2) * hee
  have hDk : D = r ^ 2 - k ^ 2 := by rw [hD]; linarith
  have hkW : |k| ≤ W := by
    refine le_of_sq_le_sq ?_ hW0
    rw [sq_abs]; linarith [sq_nonneg δ]
  have hinf2 : Metric.infDist c (lineSet q d) ^ 2 = r ^ 2 - D := by
    rw [← hw, ← hδ, ← hW, ← hD] at hchord
    linarith
  rw [dist_eq_norm, ← hw, ← hW, ← hδ, ← hD, hinf2]
  have he0 : |e 0| ≤ 1 := by have := coord_le e 0; rwa [he] at this
  have he1 : |e 1| ≤ 1 := by have := coord_le e 1; rwa [he] at this
  have hzi : ∀ i, |z i - e i| ≤ 7 * u := by
    intro i
    have h1 := (cz i).abs_sub_le
    rw [show (((2 : ℕ) : ℝ) + 5) / 2 = 7 / 2 by norm_num] at h1
    have h2 : |e i| ≤ 1 := by have := coord_le e i; rwa [he] at this
    have h3 := exp_eps_le2 h (k := 7 / 2) (by norm_num) (by linarith)
    have h4 := one_le_exp_eps h (k := 7 / 2) (by norm_num)
    have h5 := mul_le_mul h3 h2 (abs_nonneg _) (by positivity)
    linarith
  have hw0 : |w 0| ≤ W := by rw [hW]; exact coord_le w 0
  have hw1 : |w 1| ≤ W := by rw [hW]; exact coord_le w 1
  obtain ⟨a1, a2, a3⟩ := circ_dir h hη hH hη1 (coord_le q 0) (show w 0 = q 0 - c 0 by rw [hw]; rfl) hw0 he0 (hzi 0)
  obtain ⟨b1, b2, b3⟩ := circ_dir h hη hH hη1 (coord_le q 1) (show w 1 = q 1 - c 1 by rw [hw]; rfl) hw1 he1 (hzi 1)
  have hL1 := circ_len h huη hη1 hee a3 b3
  have hηW : u * (W + 1) ≤ η := by rw [hη]; exact mul_le_mul_of_nonneg_left (by linarith) hu0
  have hdet := circ_det h huη hη1 hηW hW0 hw0 hw1 he0 he1 (by rw [← hk]; exact hkW) a1 b1 a2 b2
  rw [← hk] at hdet
  obtain ⟨p2, hp2, hp2i⟩ := vadd_rd (fl := fl) q z
  obtain ⟨t1, ht1, ht1i⟩ := vsub_rd (fl := fl) q c
  obtain ⟨t2, ht2, ht2i⟩ := vsub_rd (fl := fl) p2 c
  rw [arr_two t1] at ht1
  rw [arr_two t2] at ht2
  simp only [← hp2i] at a2 a3 b2 b3 hL1 hdet
  simp only [← ht1i, ← ht2i] at a1 a2 a3 b1 b2 b3 hL1 hdet
  obtain ⟨dx, hdx⟩ : ∃ x, x = fl (t2 0 - t1 0) := ⟨_, rfl⟩
  obtain ⟨dy, hdy⟩ : ∃ x, x = fl (t2 1 - t1 1) := ⟨_, rfl⟩
  rw [← hdx] at a3 hL1
  rw [← hdy] at b3 hL1
  obtain ⟨det, hdetd⟩ : ∃ x, x = fl (fl (t1 0 * t2 1) - fl (t2 0 * t1 1)) := ⟨_, rfl⟩
  rw [← hdetd] at hdet
  obtain ⟨ℓ, hℓ⟩ : ∃ x, x = fl (fl (dx * dx) + fl (dy * dy)) := ⟨_, rfl⟩
  rw [← hℓ] at hL1
  have eD := circ_disc h (r := r) huη hη1 hW0 hkW hdet hL1
  rw [← hDk] at eD
  obtain ⟨D', hD'⟩ : ∃ x, x = fl (fl (fl (r * r) * ℓ) - fl (det * det)) := ⟨_, rfl⟩
  rw [← hD'] at eD
  have hDr : D ≤ r ^ 2 := by rw [hDk]; linarith [sq_nonneg k]
  obtain ⟨sg, hsg⟩ : ∃ sg : ℝ, sg = if dy < 0 then -1 else 1 := ⟨_, rfl⟩
  have hsg2 : sg = -1 ∨ sg = 1 := by rw [hsg]; split_ifs <;> simp
  have hval : 0 ≤ D' → ∃ y y' : E 2, @Circle.intersectLine ℝ (rounded fl) ⟨arr c, r⟩ ⟨arr q, arr d⟩ = .ok (arr y, arr y') ∧
      ‖y - (q + (-δ + -1 * sg * √D') • e)‖ ≤ 2 * u * ‖c‖ + 64 * ((W + r) * η) ∧
      ‖y' - (q + (-δ + 1 * sg * √D') • e)‖ ≤ 2 * u * ‖c‖ + 64 * ((W + r) * η) := by
    intro h0
    have hs := root_le (D := D') (b := 13 * η) hr.le hW0 (by linarith) (by
      have := (abs_le.mp eD).2; linarith)
    obtain ⟨y, hy, ey⟩ := circ_points h hη hH hη1 hW0 (by linarith : W ≤ W + r) hw he hδ hk hkW a3 b3 (Real.sqrt_nonneg D') hs
      hdet hL1 (-1) sg (by simp) hsg
    obtain ⟨y', hy', ey'⟩ := circ_points h hη hH hη1 hW0 (by linarith : W ≤ W + r) hw he hδ hk hkW a3 b3 (Real.sqrt_nonneg D') hs
      hdet hL1 1 sg (by simp) hsg
    refine ⟨y, y', ?_, ey, ey'⟩
    have hsg' : (if decide (dy < 0) = true then (-1 : ℝ) else 1) = sg := by
      rw [hsg]; simp
    have hadd : ∀ X Y : ℝ, (do
        let t ← @new1D ℝ (rounded fl) [X, Y]
        @vadd ℝ (rounded fl) t (arr c)) = .ok [fl (X + c 0), fl (Y + c 1)] := by
      intro X Y
      obtain ⟨s, hs, hsi⟩ := vadd_rd (fl := fl) (vec2 X Y) c
      rw [← arr_vec2, new1D_rd, ok_bind, hs, arr_two, hsi, hsi]
      rfl
    have hn1 : ∀ X Y : ℝ, @new1D ℝ (rounded fl) [X, Y] = .ok [X, Y] := fun X Y => by
      rw [← arr_vec2, new1D_rd]
    simp only [hn1, ok_bind] at hadd
    simp only [Circle.intersectLine, hz, ok_bind, hp2, ht1, ht2, sub_rd, add_rd, mul_rd, sq_rd, ← hdx, ← hdy, ← hℓ, ← hdetd,
      ← hD', lt_rd, zero_rd, not_lt.mpr h0, decide_false, Bool.false_eq_true, if_false, mathSqrt, sqrt_rd, hsg', neg_rd, abs_rd,
      div_rd, hn1, hadd, pure_ok, hy, hy', ofInt_rd, Int.cast_neg, Int.cast_one]
  have hraise : D' < 0 → @Circle.intersectLine ℝ (rounded fl) ⟨arr c, r⟩ ⟨arr q, arr d⟩ =
      .error (.valueError "The line does not intersect the circle.") := by
    intro h0
    simp only [Circle.intersectLine, hz, ok_bind, hp2, ht1, ht2, sub_rd, add_rd, mul_rd, sq_rd, ← hdx, ← hdy, ← hℓ, ← hdetd,
      ← hD', lt_rd, zero_rd, h0, decide_true, if_true]
  refine ⟨fun hlt => hraise ?_, fun hlt => ?_, fun res hres => ?_⟩
  · have := (abs_le.mp eD).2; linarith
  · have hDp : 0 < D := by
      have : 0 ≤ 13 * η * (W ^ 2 + r ^ 2) := by positivity
      linarith
    have hD'0 : 0 ≤ D' := by have := (abs_le.mp eD).1; linarith
    obtain ⟨y, y', hy, ey, ey'⟩ := hval hD'0
    have hsq := sqrt_diff hDp hD'0 eD
    have hρ : 0 < √D := Real.sqrt_pos.mpr hDp
    have hρr : √D ≤ r := by rw [Real.sqrt_le_left hr.le]; exact hDr
    have hc := mul_le_mul_of_nonneg_left (chord_const2 hW0 hρ hρr) hη0
    have key : ∀ (v : E 2) (σ : ℝ), |σ| = 1 → ‖v - (q + (-δ + σ * √D') • e)‖ ≤ 2 * u * ‖c‖ + 64 * ((W + r) * η) →
        dist v (q + (-δ + σ * √D) • e) ≤ 2 * u * ‖c‖ + 100 * η * ((W ^ 2 + r ^ 2) / √D) := by
      intro v σ hσ hv
      have e1 : v - (q + (-δ + σ * √D) • e) = (v - (q + (-δ + σ * √D') • e)) + (σ * (√D' - √D)) • e := by module
      rw [dist_eq_norm, e1]
      refine (norm_add_le _ _).trans ?_
      rw [norm_smul, he, mul_one, Real.norm_eq_abs, abs_mul, hσ, one_mul]
      rw [mul_div_assoc] at hsq
      linarith
    have hS := hset D (by rw [hD, hδ, hW, hw]) hDp.le
    rw [← hw, ← hδ] at hS
    rcases hsg2 with h1 | h1 <;> rw [h1] at ey ey'
    · refine ⟨y, y', _, _, hy, hS.trans (Set.pair_comm _ _), key y 1 (by simp) ?_, key y' (-1) (by simp) ?_⟩
      · rw [show (-1 : ℝ) * -1 = 1 by norm_num] at ey; exact ey
      · rw [show (1 : ℝ) * -1 = -1 by norm_num] at ey'; exact ey'
    · refine ⟨y, y', _, _, hy, hS, key y (-1) (by simp) ?_, key y' 1 (by simp) ?_⟩
      · rw [mul_one] at ey; exact ey
      · rw [mul_one] at ey'; exact ey'
  · have hD'0 : 0 ≤ D' := by
      by_contra hcon
      rw [hraise (not_le.mp hcon)] at hres
      cases hres
    obtain ⟨y, y', hy, ey, ey'⟩ := hval hD'0
    rw [hy] at hres
    refine ⟨y, y', (Except.ok.inj hres).symm, ?_⟩
    have hc := mul_le_mul_of_nonneg_left (chord_const2 hW0 hr le_rfl) hη0
    have hδ' : δ = inner ℝ e (q - c) := by rw [hδ, hw]
    have key : ∀ (z : E 2) (σ : ℝ), σ ^ 2 = 1 → ‖z - (q + (-δ + σ * √D') • e)‖ ≤ 2 * u * ‖c‖ + 64 * ((W + r) * η) →
        Metric.infDist z (lineSet q d) ≤ 2 * u * ‖c‖ + 64 * η * (W + r) ∧
        |dist z c - r| ≤ 2 * u * ‖c‖ + 100 * η * ((W ^ 2 + r ^ 2) / r) := by
      intro z σ hσ hz
      refine ⟨(hinf _ z).trans (hz.trans (le_of_eq (by ring))), ?_⟩
      have e1 := chord_off he hr (by rw [hW, hw]) hδ' hD eD hD'0 hσ
      have e2 := abs_dist_sub_le z (q + (-δ + σ * √D') • e) c
      rw [dist_eq_norm z (q + _)] at e2
      have e3 := abs_add_le (dist z c - dist (q + (-δ + σ * √D') • e) c) (dist (q + (-δ + σ * √D') • e) c - r)
      rw [sub_add_sub_cancel] at e3
      rw [mul_div_assoc] at e1
      linarith
    have hss : ∀ τ : ℝ, τ ^ 2 = 1 → (τ * sg) ^ 2 = 1 := fun τ hτ => by
      rcases hsg2 with h1 | h1 <;> rw [h1, mul_pow, hτ] <;> norm_num
    rintro z (rfl | rfl)
    · exact key _ _ (hss _ (by norm_num)) ey
    · exact key _ _ (hss _ (by norm_num)) ey'

/-- A line through the center of the unit circle, and one at the distance 2 from it, in binary64. -/
example {η : ℝ} (hη : η = (2 : ℝ)⁻¹ ^ 53 * (2 + 2 + 10)) :
    η ≤ 1 / 1000 ∧
    Metric.infDist (0 : E 2) (lineSet (vec2 (-2) 0) (vec2 1 0)) ^ 2 + 13 * η * (dist (vec2 (-2) 0) 0 ^ 2 + 1 ^ 2) < 1 ^ 2 ∧
    1 ^ 2 + 13 * η * (dist (vec2 0 2) 0 ^ 2 + 1 ^ 2) < Metric.infDist (0 : E 2) (lineSet (vec2 0 2) (vec2 1 0)) ^ 2 := by
  have hd : vec2 1 0 ≠ 0 := fun h => by
    have := congrFun (congrArg WithLp.ofLp h) 0; simp [vec2] at this
  have h1 := chord_eq (c := 0) (q := vec2 (-2) 0) hd 1
  have h2 := chord_eq (c := 0) (q := vec2 0 2) hd 1
  have n1 : ‖vec2 1 0‖ = 1 := by rw [← sq_eq_sq₀ (norm_nonneg _) zero_le_one, norm_sq2]; simp [vec2]
  rw [sub_zero, n1, inv_one, one_smul, norm_sq2, inner2] at h1 h2
  rw [dist_zero_right, dist_zero_right, norm_sq2, norm_sq2, hη]
  simp [vec2] at h1 h2 ⊢
  refine ⟨by norm_num, ?_, ?_⟩ <;> norm_num <;> linarith

end SkSpatial
