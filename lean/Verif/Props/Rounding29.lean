import Verif.Props.Rounding25
import Verif.Props.Rounding14
/-! # C119: `triangle.orthocenter` under rounding, in the plane -/

namespace SkSpatial
open StdRounding

variable {u η : ℝ} {fl : Arith}

theorem det2E_sq (x y : E 2) : det2E x y ^ 2 + (inner ℝ x y : ℝ) ^ 2 = ‖x‖ ^ 2 * ‖y‖ ^ 2 := by
  rw [norm_sq2, norm_sq2, inner2, det2E]; ring

theorem abs_det2E_le (x y : E 2) : |det2E x y| ≤ ‖x‖ * ‖y‖ := by
  refine le_of_sq_le_sq ?_ (by positivity)
  rw [sq_abs, mul_pow, ← det2E_sq]
  have := sq_nonneg (inner ℝ x y : ℝ)
  linarith

/-- The sine of the angle of two vectors of the plane. -/
theorem det2E_sine {x y : E 2} (hx : x ≠ 0) (hy : y ≠ 0) : |det2E x y| = ‖x‖ * ‖y‖ * √(1 - cosE x y ^ 2) := by
  have h1 : 0 < ‖x‖ := norm_pos_iff.mpr hx
  have h2 : 0 < ‖y‖ := norm_pos_iff.mpr hy
  have hc := abs_cosE_le_one x y
  have h3 : 0 ≤ 1 - cosE x y ^ 2 := by
    have := pow_le_one₀ (n := 2) (abs_nonneg _) hc
    rw [sq_abs] at this; linarith
  have h4 : (‖x‖ * ‖y‖ * √(1 - cosE x y ^ 2)) ^ 2 = det2E x y ^ 2 := by
    have h5 := det2E_sq x y
    have h6 : (inner ℝ x y : ℝ) = cosE x y * (‖x‖ * ‖y‖) := by rw [cosE]; field_simp
    rw [mul_pow, Real.sq_sqrt h3]
    rw [h6] at h5
    linarith
  rw [← Real.sqrt_sq_eq_abs, ← h4, Real.sqrt_sq (by positivity)]

/-- A vector of the plane from its products with two others. -/
theorem cramer_le (z A B : E 2) : ‖z‖ * |det2E A B| ≤ |inner ℝ z A| * ‖B‖ + |inner ℝ z B| * ‖A‖ := by
  refine le_of_sq_le_sq ?_ (by positivity)
  have h1 : (‖z‖ * |det2E A B|) ^ 2 = (inner ℝ z A : ℝ) ^ 2 * ‖B‖ ^ 2 + (inner ℝ z B : ℝ) ^ 2 * ‖A‖ ^ 2 -
      2 * (inner ℝ z A * inner ℝ z B * inner ℝ A B) := by
    rw [mul_pow, sq_abs, norm_sq2, norm_sq2, norm_sq2, inner2, inner2, inner2, det2E]; ring
  have h2 : -((inner ℝ z A : ℝ) * inner ℝ z B * inner ℝ A B) ≤ |inner ℝ z A| * |inner ℝ z B| * (‖A‖ * ‖B‖) := by
    refine (neg_le_abs _).trans ?_
    rw [abs_mul, abs_mul]
    exact mul_le_mul_of_nonneg_left (abs_real_inner_le_norm _ _) (by positivity)
  rw [h1, add_sq, mul_pow, mul_pow, sq_abs, sq_abs]
  linarith

theorem perp2 {d A : E 2} (hA : A ≠ 0) (h : inner ℝ d A = (0 : ℝ)) : ∃ l : ℝ, d 0 = -(l * A 1) ∧ d 1 = l * A 0 := by
  have hp : 0 < A 0 ^ 2 + A 1 ^ 2 := by rw [← norm_sq2]; have := norm_pos_iff.mpr hA; positivity
  rw [inner2] at h
  refine ⟨(A 0 * d 1 - A 1 * d 0) / (A 0 ^ 2 + A 1 ^ 2), ?_, ?_⟩
  · field_simp; linear_combination A 0 * h
  · field_simp; linear_combination A 1 * h

/-- The angle between perpendiculars. -/
theorem det2E_perp {d e A B : E 2} (hA : A ≠ 0) (hB : B ≠ 0) (h1 : inner ℝ d A = (0 : ℝ)) (h2 : inner ℝ e B = (0 : ℝ)) :
    |det2E d e| * (‖A‖ * ‖B‖) = ‖d‖ * ‖e‖ * |det2E A B| := by
  obtain ⟨l, a1, a2⟩ := perp2 hA h1
  obtain ⟨m, b1, b2⟩ := perp2 hB h2
  have e1 : det2E d e = l * m * det2E A B := by rw [det2E, det2E, a1, a2, b1, b2]; ring
  have e2 : ‖d‖ = |l| * ‖A‖ := by
    rw [← Real.sqrt_sq (norm_nonneg d), ← Real.sqrt_sq (by positivity : 0 ≤ |l| * ‖A‖), mul_pow, sq_abs, norm_sq2, norm_sq2, a1, a2]
    congr 1; ring
  have e3 : ‖e‖ = |m| * ‖B‖ := by
    rw [← Real.sqrt_sq (norm_nonneg e), ← Real.sqrt_sq (by positivity : 0 ≤ |m| * ‖B‖), mul_pow, sq_abs, norm_sq2, norm_sq2, b1, b2]
    congr 1; ring
  rw [e1, e2, e3, abs_mul, abs_mul]; ring

theorem foot_perp {n : ℕ} (p x : E n) {v : E n} (hv : v ≠ 0) : inner ℝ (foot p v x - x) v = (0 : ℝ) := by
  have h : ‖v‖ ≠ 0 := norm_ne_zero_iff.mpr hv
  rw [foot, show p + (inner ℝ (x - p) v / ‖v‖ ^ 2 : ℝ) • v - x = (inner ℝ (x - p) v / ‖v‖ ^ 2 : ℝ) • v - (x - p) by abel, inner_sub_left,
    real_inner_smul_left, real_inner_self_eq_norm_sq]
  field_simp; simp

/-- The sine of the angle between perturbed vectors. -/
theorem sine_perturb {d e w v : E 2} {s δ : ℝ} (hd : d ≠ 0) (he : e ≠ 0) (hs : s * (‖d‖ * ‖e‖) ≤ |det2E d e|) (hδ0 : 0 ≤ δ) (hδ : 8 * δ ≤ s)
    (hs1 : s ≤ 1) (hw : ‖w - d‖ ≤ δ * ‖d‖) (hv : ‖v - e‖ ≤ δ * ‖e‖) : s / 2 * (‖w‖ * ‖v‖) ≤ |det2E w v| := by
  have hd0 : 0 < ‖d‖ := norm_pos_iff.mpr hd
  have he0 : 0 < ‖e‖ := norm_pos_iff.mpr he
  have nw : ‖w‖ ≤ (1 + δ) * ‖d‖ := by
    have := norm_le_norm_add_norm_sub' w d; linarith
  have nv : ‖v‖ ≤ (1 + δ) * ‖e‖ := by
    have := norm_le_norm_add_norm_sub' v e; linarith
  have h1 : det2E d e = det2E w v - det2E (w - d) e - det2E w (v - e) := by
    simp only [det2E, PiLp.sub_apply]; ring
  have h2 := abs_det2E_le (w - d) e
  have h3 := abs_det2E_le w (v - e)
  have h4 : |det2E (w - d) e| ≤ δ * (‖d‖ * ‖e‖) := by
    refine h2.trans ((mul_le_mul_of_nonneg_right hw he0.le).trans (le_of_eq (by ring)))
  have h5 : |det2E w (v - e)| ≤ (1 + δ) * δ * (‖d‖ * ‖e‖) := by
    refine h3.trans ((mul_le_mul nw hv (norm_nonneg _) (by positivity)).trans (le_of_eq (by ring)))
  have h6 : |det2E d e| ≤ |det2E w v| + |det2E (w - d) e| + |det2E w (v - e)| := by
    rw [h1]
    exact (abs_sub _ _).trans (add_le_add_left (abs_sub _ _) _)
  have h7 : ‖w‖ * ‖v‖ ≤ (1 + δ) ^ 2 * (‖d‖ * ‖e‖) :=
    (mul_le_mul nw nv (norm_nonneg _) (by positivity)).trans (le_of_eq (by ring))
  have hX : 0 < ‖d‖ * ‖e‖ := by positivity
  have hs0 : 0 ≤ s := by linarith
  have h8 : s / 2 * (‖w‖ * ‖v‖) ≤ s / 2 * ((1 + δ) ^ 2 * (‖d‖ * ‖e‖)) := mul_le_mul_of_nonneg_left h7 (by linarith)
  have h9 : s / 2 * (1 + δ) ^ 2 + δ + (1 + δ) * δ ≤ s := by
    have d1 : δ ≤ 1 / 8 := by linarith
    have d2 : s * δ ≤ δ := by nlinarith
    have d3 : δ ^ 2 ≤ δ / 8 := by nlinarith
    have d4 : s * δ ^ 2 ≤ δ ^ 2 := by nlinarith [sq_nonneg δ]
    nlinarith
  have h10 := mul_le_mul_of_nonneg_right h9 hX.le
  nlinarith

theorem ortho_const (h : StdRounding u fl) (hu : u ≤ 1 / 10 ^ 11) :
    (1 - u)⁻¹ - 1 ≤ 4 * u ∧ ((1 - u) ^ 14)⁻¹ - 1 ≤ 30 * u ∧ ((1 - u) ^ 2)⁻¹ - 1 ≤ 4 * u ∧ ((1 - u) ^ 15)⁻¹ - 1 ≤ 30 * u := by
  have hu0 := h.nonneg
  have h1 := h.lt_one
  have key : ∀ k : ℕ, 1 ≤ k → k ≤ 15 → ((1 - u) ^ k)⁻¹ - 1 ≤ 2 * k * u := by
    intro k hk hk'
    have hk1 : (1 : ℝ) ≤ k := by exact_mod_cast hk
    have hk2 : (k : ℝ) ≤ 15 := by exact_mod_cast hk'
    have := exp_eps_le2 h hk1 (by norm_num at hu; nlinarith)
    rw [h.exp_eps, Real.rpow_natCast] at this
    exact this
  have k1 := key 1 (by norm_num) (by norm_num)
  have k2 := key 2 (by norm_num) (by norm_num)
  have k14 := key 14 (by norm_num) (by norm_num)
  have k15 := key 15 (by norm_num) (by norm_num)
  norm_num at k1 k2 k14 k15
  refine ⟨by linarith, by linarith, by linarith, by linarith⟩

theorem ortho_side {x H p d w A : E 2} {δ : ℝ} (hδ0 : 0 ≤ δ) (hδ1 : δ ≤ 1 / 8) (e1 : inner ℝ (H - p) A = (0 : ℝ))
    (e2 : inner ℝ d A = (0 : ℝ)) (e3 : 0 < ‖d‖) (e4 : ‖w - d‖ ≤ δ * ‖d‖) (e5 : x ∈ lineSet p w) :
    |inner ℝ (x - H) A| ≤ 2 * δ * dist x p * ‖A‖ := by
  obtain ⟨t, ht⟩ := e5
  have e6 : x - p = t • w := by rw [ht]; simp
  have e7 : (inner ℝ (x - H) A : ℝ) = t * inner ℝ (w - d) A := by
    rw [show x - H = (x - p) - (H - p) by abel, inner_sub_left, e1, e6, real_inner_smul_left, inner_sub_left, e2]; ring
  have e8 : ‖d‖ / 2 ≤ ‖w‖ := by
    have := norm_sub_norm_le d w
    rw [norm_sub_rev] at this
    nlinarith
  have e9 : |t| * ‖d‖ ≤ 2 * dist x p := by
    rw [dist_eq_norm, e6, norm_smul, Real.norm_eq_abs]
    have := mul_le_mul_of_nonneg_left e8 (abs_nonneg t)
    linarith
  rw [e7, abs_mul]
  calc |t| * |(inner ℝ (w - d) A : ℝ)| ≤ |t| * (δ * ‖d‖ * ‖A‖) :=
        mul_le_mul_of_nonneg_left ((abs_real_inner_le_norm _ _).trans (mul_le_mul_of_nonneg_right e4 (norm_nonneg _))) (abs_nonneg _)
    _ = |t| * ‖d‖ * (δ * ‖A‖) := by ring
    _ ≤ 2 * dist x p * (δ * ‖A‖) := mul_le_mul_of_nonneg_right e9 (by positivity)
    _ = _ := by ring

set_option maxHeartbeats 2000000 in
/-- C119: `triangle.orthocenter()` in the plane, under rounding.  Let `s` be the sine of the angle at the vertex `C`, and `δ ≤ s/8` a bound
on the relative error of the two altitudes used: `u (4|b| + 30|ab|)` and `u (4|c| + 30|bc|)` relative to the heights from `A` and `B`.  If
`s ≥ 1.2e-4`, the method returns a point within `u (2|a| + 520 |ab| / s²) + 4 (δ/s) (|Ha| + |Hb|)` of the orthocenter `H`. -/
theorem C119_orthocenter (h : StdRounding u fl) (hu : u ≤ 1 / 10 ^ 11) [ext : NumpyExt ℝ] [hS : StableNumpy η] {a b c : E 2} {T : Triangle ℝ}
    (hT : @Triangle.new ℝ (rounded fl) ext (arr a) (arr b) (arr c) = .ok T) (hab : a ≠ b) (hbc : b ≠ c) (hca : c ≠ a) {s δ : ℝ} {H : E 2}
    (hs : s ≤ √(1 - cosE (a - c) (b - c) ^ 2)) (hs0 : 12 / 10 ^ 5 ≤ s) (hδ : 8 * δ ≤ s)
    (hA : u * (4 * ‖b‖ + 30 * dist a b) ≤ δ * Metric.infDist a (lineSet b (c - b)))
    (hB : u * (4 * ‖c‖ + 30 * dist b c) ≤ δ * Metric.infDist b (lineSet c (a - c)))
    (hHa : inner ℝ (H - a) (c - b) = (0 : ℝ)) (hHb : inner ℝ (H - b) (a - c) = (0 : ℝ)) (check : Bool) :
    ∃ y, @Triangle.orthocenter ℝ (rounded fl) ext T check (@Tol.default ℝ (rounded fl)) = .ok (arr y) ∧
      dist y H ≤ u * (2 * ‖a‖ + 520 * dist a b / s ^ 2) + 4 * δ / s * (dist H a + dist H b) := by
  have hu0 := h.nonneg
  have hsp : 0 < s := lt_of_lt_of_le (by norm_num) hs0
  have hu2 : u ≤ 1 / 2 := by norm_num at hu; linarith
  have cA : c - b ≠ 0 := sub_ne_zero.mpr hbc.symm
  have cB : a - c ≠ 0 := sub_ne_zero.mpr hca.symm
  have cC : b - c ≠ 0 := sub_ne_zero.mpr hbc
  obtain ⟨k1, k14, k2, k15⟩ := ortho_const h hu
  obtain ⟨hs1, hsAB⟩ : s ≤ 1 ∧ s * (‖c - b‖ * ‖a - c‖) ≤ |det2E (c - b) (a - c)| := by
    have h1 := det2E_sine cB cC
    have h2 := abs_det2E_le (a - c) (b - c)
    have h3 : 0 < ‖a - c‖ * ‖b - c‖ := mul_pos (norm_pos_iff.mpr cB) (norm_pos_iff.mpr cC)
    constructor
    · refine hs.trans ?_
      rw [h1] at h2
      nlinarith
    · have h4 : |det2E (c - b) (a - c)| = |det2E (a - c) (b - c)| := by
        congr 1; simp only [det2E, PiLp.sub_apply]; ring
      rw [h4, h1, norm_sub_rev c b, mul_comm]
      refine le_trans (mul_le_mul_of_nonneg_left hs (by positivity)) (le_of_eq (by ring))
  obtain ⟨dA, hdA⟩ : ∃ d, d = foot b (c - b) a - a := ⟨_, rfl⟩
  obtain ⟨dB, hdB⟩ : ∃ d, d = foot c (a - c) b - b := ⟨_, rfl⟩
  have pA : inner ℝ dA (c - b) = (0 : ℝ) := by rw [hdA]; exact foot_perp b a cA
  have pB : inner ℝ dB (a - c) = (0 : ℝ) := by rw [hdB]; exact foot_perp c b cB
  have eA : Metric.infDist a (lineSet b (c - b)) = ‖dA‖ := by
    rw [infDist_lineSet b cA, hdA, dist_comm, dist_eq_norm, foot, footE, real_inner_comm]
  have eB : Metric.infDist b (lineSet c (a - c)) = ‖dB‖ := by
    rw [infDist_lineSet c cB, hdB, dist_comm, dist_eq_norm, foot, footE, real_inner_comm]
  rw [eA] at hA
  rw [eB] at hB
  have hdet := det2E_perp cA cB pA pB
  -- the triangle is not degenerate
  have hdet0 : 0 < |det2E (c - b) (a - c)| := by
    have := norm_pos_iff.mpr cA
    have := norm_pos_iff.mpr cB
    exact lt_of_lt_of_le (by positivity) hsAB
  have key0 : ∀ {p q r : E 2} {d : E 2}, d = foot q (r - q) p - p → det2E (q - p) (r - q) ≠ 0 → d ≠ 0 := by
    rintro p q r d rfl hne h0
    apply hne
    have h1 : p - q = (inner ℝ (p - q) (r - q) / ‖r - q‖ ^ 2 : ℝ) • (r - q) := by
      have := sub_eq_zero.mp h0
      rw [foot] at this
      rw [← sub_eq_iff_eq_add'.mpr this.symm]
    obtain ⟨t, ht⟩ : ∃ t : ℝ, p - q = t • (r - q) := ⟨_, h1⟩
    have e0 := congrArg (fun x : E 2 => x 0) ht
    have e1 := congrArg (fun x : E 2 => x 1) ht
    simp only [PiLp.sub_apply, PiLp.smul_apply, smul_eq_mul] at e0 e1
    simp only [det2E, PiLp.sub_apply]
    linear_combination (-(r 1 - q 1)) * e0 + (r 0 - q 0) * e1
  have hne : det2E (c - b) (a - c) ≠ 0 := abs_pos.mp hdet0
  have nA : dA ≠ 0 := key0 hdA (by
    intro h0; apply hne; rw [← h0]; simp only [det2E, PiLp.sub_apply]; ring)
  have nB : dB ≠ 0 := key0 hdB (by
    intro h0; apply hne; rw [← h0])
  have hA0 : 0 < ‖dA‖ := norm_pos_iff.mpr nA
  have hB0 : 0 < ‖dB‖ := norm_pos_iff.mpr nB
  have hδ0 : 0 ≤ δ := by
    by_contra hc
    have : δ * ‖dA‖ < 0 := mul_neg_of_neg_of_pos (not_le.mp hc) hA0
    have h2 : 0 ≤ u * (4 * ‖b‖ + 30 * dist a b) := by positivity
    linarith
  have hδ1 : δ ≤ 1 / 8 := by linarith
  have hsd : s * (‖dA‖ * ‖dB‖) ≤ |det2E dA dB| := by
    have h1 : 0 < ‖c - b‖ * ‖a - c‖ := mul_pos (norm_pos_iff.mpr cA) (norm_pos_iff.mpr cB)
    refine le_of_mul_le_mul_right ?_ h1
    rw [hdet]
    calc s * (‖dA‖ * ‖dB‖) * (‖c - b‖ * ‖a - c‖) = ‖dA‖ * ‖dB‖ * (s * (‖c - b‖ * ‖a - c‖)) := by ring
      _ ≤ _ := mul_le_mul_of_nonneg_left hsAB (by positivity)
  -- the computed altitudes
  obtain ⟨aA, aB, -⟩ := C115_altitude h hu2 hT hab hbc hca
  have bd : ∀ x y : ℝ, 0 ≤ x → 0 ≤ y → ((1 - u)⁻¹ - 1) * x + (((1 - u) ^ (2 * 2 + 10))⁻¹ - 1) * y ≤ u * (4 * x + 30 * y) := by
    intro x y hx hy
    have e1 := mul_le_mul_of_nonneg_right k1 hx
    have e2 := mul_le_mul_of_nonneg_right k14 hy
    norm_num
    linarith
  have bd' : ∀ x y : ℝ, 0 ≤ x → 0 ≤ y → (((1 - u) ^ 2)⁻¹ - 1) * x + (((1 - u) ^ (2 * 2 + 11))⁻¹ - 1) * y ≤ u * (4 * x + 30 * y) := by
    intro x y hx hy
    have e1 := mul_le_mul_of_nonneg_right k2 hx
    have e2 := mul_le_mul_of_nonneg_right k15 hy
    norm_num
    linarith
  have small : ∀ {x : ℝ}, 0 < x → δ * x < x := fun hx => by nlinarith
  obtain ⟨w, hw, hw0, ew⟩ := aA (by
    rw [dist_comm a (foot b (c - b) a), dist_eq_norm (foot b (c - b) a), ← hdA]
    exact lt_of_le_of_lt ((bd _ _ (norm_nonneg _) dist_nonneg).trans hA) (small hA0))
  obtain ⟨v, hv, hv0, ev⟩ := aB (by
    rw [dist_comm b (foot c (a - c) b), dist_eq_norm (foot c (a - c) b), ← hdB]
    exact lt_of_le_of_lt ((bd _ _ (norm_nonneg _) dist_nonneg).trans hB) (small hB0))
  rw [← hdA] at ew
  rw [← hdB] at ev
  have ew' := ew.trans ((bd' _ _ (norm_nonneg _) dist_nonneg).trans hA)
  have ev' := ev.trans ((bd' _ _ (norm_nonneg _) dist_nonneg).trans hB)
  have hsw := sine_perturb nA nB hsd hδ0 hδ hs1 ew' ev'
  have hw0' : 0 < ‖w‖ := norm_pos_iff.mpr hw0
  have hv0' : 0 < ‖v‖ := norm_pos_iff.mpr hv0
  obtain ⟨σ, hσ⟩ : ∃ σ, σ = √(1 - cosE w v ^ 2) := ⟨_, rfl⟩
  have hσs : s / 2 ≤ σ := by
    rw [det2E_sine hw0 hv0, ← hσ, mul_comm] at hsw
    exact le_of_mul_le_mul_left hsw (by positivity)
  have hσ0 : 0 < σ := by linarith
  have hcos : |cosE w v| < 1 - 15 / 10 ^ 10 := by
    have h1 : σ ^ 2 = 1 - |cosE w v| ^ 2 := by
      rw [hσ, sq_abs]
      refine Real.sq_sqrt ?_
      have := pow_le_one₀ (n := 2) (abs_nonneg _) (abs_cosE_le_one w v)
      rw [sq_abs] at this; linarith
    have h2 : (6 / 10 ^ 5) ^ 2 ≤ σ ^ 2 := pow_le_pow_left₀ (by norm_num) (by norm_num at hs0 ⊢; linarith) 2
    have h3 := abs_nonneg (cosE w v)
    norm_num at h2 ⊢
    nlinarith
  have LA := ((C73_constructors h hu2 a w).1 hw0).1
  have LB := ((C73_constructors h hu2 b v).1 hv0).1
  obtain ⟨y, hy, x, ⟨hx1, hx2⟩, hyx⟩ := ((C109_plane (η := η) le_rfl h hu LA LB).2 hcos).2 check
  obtain rfl := triangle_new_rd hT
  refine ⟨y, ?_, ?_⟩
  · simp only [Triangle.orthocenter, hw, hv, ok_bind]
    exact hy
  rw [← hσ] at hyx
  have hκ : σ⁻¹ ^ 2 ≤ 4 / s ^ 2 := by
    rw [inv_pow, inv_le_comm₀ (by positivity) (by positivity)]
    rw [inv_div, div_le_iff₀ (by norm_num)]
    nlinarith
  have h1 : dist y x ≤ u * (2 * ‖a‖ + 520 * dist a b / s ^ 2) := by
    refine hyx.trans (mul_le_mul_of_nonneg_left ?_ hu0)
    have e1 : 130 * σ⁻¹ ^ 2 * dist a b ≤ 130 * (4 / s ^ 2) * dist a b :=
      mul_le_mul_of_nonneg_right (mul_le_mul_of_nonneg_left hκ (by norm_num)) dist_nonneg
    have e2 : 130 * (4 / s ^ 2) * dist a b = 520 * dist a b / s ^ 2 := by ring
    linarith
  -- the exact intersection of the computed altitudes
  have s1 := ortho_side hδ0 hδ1 hHa pA hA0 ew' hx1
  have s2 := ortho_side hδ0 hδ1 hHb pB hB0 ev' hx2
  have hz := cramer_le (x - H) (c - b) (a - c)
  have hAB : 0 < ‖c - b‖ * ‖a - c‖ := mul_pos (norm_pos_iff.mpr cA) (norm_pos_iff.mpr cB)
  have h2 : ‖x - H‖ * s ≤ 2 * δ * (dist x a + dist x b) := by
    refine le_of_mul_le_mul_right ?_ hAB
    calc ‖x - H‖ * s * (‖c - b‖ * ‖a - c‖) = ‖x - H‖ * (s * (‖c - b‖ * ‖a - c‖)) := by ring
      _ ≤ ‖x - H‖ * |det2E (c - b) (a - c)| := mul_le_mul_of_nonneg_left hsAB (norm_nonneg _)
      _ ≤ _ := hz
      _ ≤ 2 * δ * dist x a * ‖c - b‖ * ‖a - c‖ + 2 * δ * dist x b * ‖a - c‖ * ‖c - b‖ :=
          add_le_add (mul_le_mul_of_nonneg_right s1 (norm_nonneg _)) (mul_le_mul_of_nonneg_right s2 (norm_nonneg _))
      _ = _ := by ring
  have h3 : dist x H ≤ 4 * δ / s * (dist H a + dist H b) := by
    have t1 := dist_triangle x H a
    have t2 := dist_triangle x H b
    rw [← dist_eq_norm] at h2
    rw [div_mul_eq_mul_div, le_div_iff₀ hsp]
    have t3 : 2 * δ * (dist x a + dist x b) ≤ 2 * δ * (2 * dist x H + (dist H a + dist H b)) :=
      mul_le_mul_of_nonneg_left (by linarith) (by positivity)
    have t4 : 8 * δ * dist x H ≤ s * dist x H := mul_le_mul_of_nonneg_right hδ dist_nonneg
    linarith
  exact (dist_triangle y x H).trans (add_le_add h1 h3)

/-- In binary64 the orthocenter of the right triangle `(0, 0)`, `(4, 0)`, `(0, 3)` is found within `2 · 10⁻¹²` of the right angle. -/
example (ext : NumpyExt ℝ) (hl : @LawfulNumpy ext) : ∃ T y,
    @Triangle.new ℝ (rounded (leftToRight (roundNearest 53))) ext (arr (vec2 0 0)) (arr (vec2 4 0)) (arr (vec2 0 3)) = .ok T ∧
    @Triangle.orthocenter ℝ (rounded (leftToRight (roundNearest 53))) ext T true (@Tol.default ℝ (rounded (leftToRight (roundNearest 53)))) =
      .ok (arr y) ∧ dist y (vec2 0 0) ≤ 2 / 10 ^ 12 := by
  have := @StableNumpy.of_lawful ext hl
  have hs : StdRounding ((2 : ℝ)⁻¹ ^ 53) (leftToRight (roundNearest 53)) := by
    have := std53
    rwa [show (2 : ℝ) ^ (-(53 : ℕ) : ℤ) = (2 : ℝ)⁻¹ ^ 53 by norm_num] at this
  have hlt : triangleNoise ((2 : ℝ)⁻¹ ^ 53) 0 (vec2 0 0) (vec2 4 0) (vec2 0 3) < 1 := lt_of_le_of_lt noise_345.2 (by norm_num)
  have hT := C105_triangle (η := 0) hs (fun l => hlt.trans (far_345 l).1) (fun l => hlt.trans (far_345 l).2.1)
    (fun l => hlt.trans (far_345 l).2.2)
  have far : ∀ p q r : E 2, (∀ l : ℝ, (1 : ℝ) < dist p (AffineMap.lineMap q r l)) → 1 ≤ Metric.infDist p (lineSet q (r - q)) := by
    intro p q r hd
    have hne : (lineSet q (r - q)).Nonempty := ⟨q, 0, by simp⟩
    refine (Metric.le_infDist hne).mpr ?_
    rintro _ ⟨t, rfl⟩
    have := hd t
    rw [AffineMap.lineMap_apply_module', add_comm] at this
    exact this.le
  have f1 := far _ _ _ fun l => (far_345 l).1
  have f2 := far _ _ _ fun l => (far_345 l).2.1
  have nrm : ∀ {x : E 2} {r : ℝ}, 0 ≤ r → x 0 ^ 2 + x 1 ^ 2 = r ^ 2 → ‖x‖ = r := by
    intro x r hr hx
    rw [← Real.sqrt_sq (norm_nonneg x), norm_sq2, hx, Real.sqrt_sq hr]
  have n0 : ‖vec2 0 0‖ = 0 := nrm le_rfl (by simp [vec2])
  have n1 : ‖vec2 4 0‖ = 4 := nrm (by norm_num) (by simp [vec2])
  have n2 : ‖vec2 0 3‖ = 3 := nrm (by norm_num) (by simp [vec2])
  have d1 : dist (vec2 0 0) (vec2 4 0) = 4 := by rw [dist_eq_norm]; exact nrm (by norm_num) (by simp [vec2])
  have d2 : dist (vec2 4 0) (vec2 0 3) = 5 := by rw [dist_eq_norm]; exact nrm (by norm_num) (by norm_num [vec2])
  have m1 : ‖vec2 0 0 - vec2 0 3‖ = 3 := nrm (by norm_num) (by simp [vec2])
  have m2 : ‖vec2 4 0 - vec2 0 3‖ = 5 := nrm (by norm_num) (by norm_num [vec2])
  have hc : cosE (vec2 0 0 - vec2 0 3) (vec2 4 0 - vec2 0 3) = 3 / 5 := by
    rw [cosE, m1, m2, inner2]; norm_num [vec2]
  obtain ⟨y, h1, h2⟩ := C119_orthocenter (η := 0) hs (by norm_num) hT (fun e => by have := congrArg (fun x : E 2 => x 0) e; simp [vec2] at this)
    (fun e => by have := congrArg (fun x : E 2 => x 0) e; simp [vec2] at this)
    (fun e => by have := congrArg (fun x : E 2 => x 1) e; simp [vec2] at this) (s := 4 / 5) (δ := 200 * 2⁻¹ ^ 53) (H := vec2 0 0)
    (by rw [hc, show (1 - (3 / 5) ^ 2 : ℝ) = (4 / 5) ^ 2 by norm_num, Real.sqrt_sq (by norm_num)]) (by norm_num) (by norm_num)
    (by rw [n1, d1]; norm_num; linarith) (by rw [n2, d2]; norm_num; linarith) (by rw [sub_self, inner_zero_left])
    (by rw [inner2]; simp [vec2]) true
  refine ⟨_, y, hT, h1, h2.trans ?_⟩
  rw [n0, d1, dist_self]
  norm_num

end SkSpatial
