import Verif.Props.Cylinder
import Verif.Props.Rounding10
/-! # C93: cylinders under rounding -/

namespace SkSpatial
open StdRounding

variable {u : ℝ} {fl : Arith}

theorem exists_unit_perp (v : E 3) : ∃ w : E 3, ‖w‖ = 1 ∧ inner ℝ w v = (0 : ℝ) := by
  have : ∃ w : E 3, w ≠ 0 ∧ inner ℝ w v = (0 : ℝ) := by
    by_cases h : v 0 = 0 ∧ v 1 = 0
    · refine ⟨vec3 1 0 0, ?_, ?_⟩
      · intro h; have := congrArg (fun x : E 3 => x 0) h; simp [vec3] at this
      · rw [inner3]; simp [vec3, h.1]
    · refine ⟨vec3 (-v 1) (v 0) 0, ?_, ?_⟩
      · intro hh
        have h0 := congrArg (fun x : E 3 => x 0) hh
        have h1 := congrArg (fun x : E 3 => x 1) hh
        simp [vec3] at h0 h1
        exact h ⟨h1, h0⟩
      · rw [inner3]; simp [vec3]; ring
  obtain ⟨w, hw, hi⟩ := this
  refine ⟨‖w‖⁻¹ • w, ?_, ?_⟩
  · rw [norm_smul, norm_inv, norm_norm, inv_mul_cancel₀ (norm_ne_zero_iff.mpr hw)]
  · rw [real_inner_smul_left, hi, mul_zero]

/-- Membership in the solid cylinder in terms of the distance from the axis and the signed distance from the base. -/
theorem mem_solidCyl_dist {p a x : E 3} (ha : a ≠ 0) {r : ℝ} (hr : 0 < r) : x ∈ solidCyl p a r ↔
    0 ≤ signedDist p a x ∧ signedDist p a x ≤ ‖a‖ ∧ dist x (foot p a x) ≤ r := by
  have e1 : psignedE p a x = signedDist p a x := by rw [← signedDist_eq, psignedE, real_inner_comm]
  have e2 : foot p a x = footE p a x := by rw [foot, footE, real_inner_comm]
  rw [mem_solidCyl ha hr, e1, e2, ← dist_footE_rad2 p ha, pow_le_pow_iff_left₀ dist_nonneg hr.le two_ne_zero]

/-- If a ball is inside the cylinder, its centre is that far from the boundary. -/
theorem ball_solidCyl {p a x : E 3} (ha : a ≠ 0) {r η : ℝ} (hr : 0 < r) (hη : 0 ≤ η)
    (hb : Metric.closedBall x η ⊆ solidCyl p a r) :
    η ≤ signedDist p a x ∧ signedDist p a x + η ≤ ‖a‖ ∧ dist x (foot p a x) + η ≤ r := by
  have hn : 0 < ‖a‖ := norm_pos_iff.mpr ha
  have hin : ∀ w : E 3, ‖w‖ = 1 → x + η • w ∈ solidCyl p a r := by
    intro w hw
    apply hb
    rw [Metric.mem_closedBall, dist_eq_norm, add_sub_cancel_left, norm_smul, hw, mul_one, Real.norm_eq_abs,
      abs_of_nonneg hη]
  have hax : ∀ s : ℝ, ‖s • ‖a‖⁻¹ • a‖ = |s| := by
    intro s
    rw [norm_smul, norm_smul, norm_inv, norm_norm, inv_mul_cancel₀ hn.ne', mul_one, Real.norm_eq_abs]
  have hsd : ∀ s : ℝ, signedDist p a (x + η • s • ‖a‖⁻¹ • a) = signedDist p a x + η * s := by
    intro s
    rw [signedDist, signedDist, show x + η • s • ‖a‖⁻¹ • a - p = (x - p) + η • s • ‖a‖⁻¹ • a by abel, inner_add_left,
      real_inner_smul_left, real_inner_smul_left, real_inner_smul_left, real_inner_self_eq_norm_sq]
    field_simp
  refine ⟨?_, ?_, ?_⟩
  · have := ((mem_solidCyl_dist ha hr).mp (hin ((-1 : ℝ) • ‖a‖⁻¹ • a) (by rw [hax]; norm_num))).1
    rw [hsd] at this; linarith
  · have := ((mem_solidCyl_dist ha hr).mp (hin ((1 : ℝ) • ‖a‖⁻¹ • a) (by rw [hax]; norm_num))).2.1
    rw [hsd] at this; linarith
  · obtain ⟨w, hw, hwa, hx⟩ : ∃ w : E 3, ‖w‖ = 1 ∧ inner ℝ w a = (0 : ℝ) ∧
        x - foot p a x = dist x (foot p a x) • w := by
      by_cases h0 : x - foot p a x = 0
      · obtain ⟨w, h1, h2⟩ := exists_unit_perp a
        exact ⟨w, h1, h2, by rw [dist_eq_norm, h0]; simp⟩
      · refine ⟨‖x - foot p a x‖⁻¹ • (x - foot p a x), ?_, ?_, ?_⟩
        · rw [norm_smul, norm_inv, norm_norm, inv_mul_cancel₀ (norm_ne_zero_iff.mpr h0)]
        · rw [real_inner_smul_left, foot_inner p a x ha, mul_zero]
        · rw [dist_eq_norm, smul_inv_smul₀ (norm_ne_zero_iff.mpr h0)]
    have := ((mem_solidCyl_dist ha hr).mp (hin w hw)).2.2
    have hf : foot p a (x + η • w) = foot p a x := by
      rw [foot, foot, show x + η • w - p = (x - p) + η • w by abel, inner_add_left, real_inner_smul_left, hwa]
      simp
    rw [hf, dist_eq_norm, show x + η • w - foot p a x = (x - foot p a x) + η • w by abel, hx, ← add_smul, norm_smul,
      hw, mul_one, Real.norm_eq_abs, abs_of_nonneg (by positivity)] at this
    exact this

/-- A point that satisfies the three inequalities up to margins is near the cylinder. -/
theorem near_solidCyl {p a x : E 3} (ha : a ≠ 0) {r α β : ℝ} (hr : 0 < r) (hα : 0 ≤ α) (hβ : 0 ≤ β)
    (h0 : -α ≤ signedDist p a x) (h1 : signedDist p a x ≤ ‖a‖ + α) (h2 : dist x (foot p a x) ≤ r + β) :
    ∃ y ∈ solidCyl p a r, dist x y ≤ α + β := by
  have hn : 0 < ‖a‖ := norm_pos_iff.mpr ha
  obtain ⟨t, ht⟩ : ∃ t, t = signedDist p a x / ‖a‖ := ⟨_, rfl⟩
  obtain ⟨w, hw⟩ : ∃ w, w = x - foot p a x := ⟨_, rfl⟩
  have hx : x = p + t • a + w := by
    rw [hw, foot, ht, signedDist, div_div, ← pow_two]; abel
  have hwa : inner ℝ w a = (0 : ℝ) := by rw [hw]; exact foot_inner p a x ha
  have hwn : ‖w‖ ≤ r + β := by rw [hw, ← dist_eq_norm]; exact h2
  have hta : t * ‖a‖ = signedDist p a x := by rw [ht, div_mul_cancel₀ _ hn.ne']
  -- clamp the axial coordinate
  obtain ⟨t', q0, q1, q2⟩ : ∃ t', 0 ≤ t' ∧ t' ≤ 1 ∧ |t - t'| * ‖a‖ ≤ α := by
    by_cases c0 : t < 0
    · refine ⟨0, le_rfl, zero_le_one, ?_⟩
      rw [sub_zero, abs_of_neg c0]; linarith
    · by_cases c1 : 1 < t
      · refine ⟨1, zero_le_one, le_rfl, ?_⟩
        rw [abs_of_pos (by linarith), sub_mul, hta]; linarith
      · exact ⟨t, not_lt.mp c0, not_lt.mp c1, by simpa using hα⟩
  -- shrink the radial part
  obtain ⟨k, k0, k1, k2, k3⟩ : ∃ k : ℝ, 0 ≤ k ∧ k ≤ 1 ∧ k * ‖w‖ ≤ r ∧ (1 - k) * ‖w‖ ≤ β := by
    by_cases c : ‖w‖ ≤ r
    · exact ⟨1, zero_le_one, le_rfl, by linarith, by simpa using hβ⟩
    · have hw0 : 0 < ‖w‖ := hr.trans (not_le.mp c)
      refine ⟨r / ‖w‖, by positivity, (div_le_one hw0).mpr (not_le.mp c).le, ?_, ?_⟩
      · rw [div_mul_cancel₀ _ hw0.ne']
      · rw [sub_mul, div_mul_cancel₀ _ hw0.ne']; linarith
  refine ⟨p + t' • a + k • w, ⟨t', k • w, q0, q1, ?_, ?_, rfl⟩, ?_⟩
  · rw [real_inner_smul_left, hwa, mul_zero]
  · rw [norm_smul, Real.norm_eq_abs, abs_of_nonneg k0]; exact k2
  · rw [hx, dist_eq_norm, show p + t • a + w - (p + t' • a + k • w) = (t - t') • a + (1 - k) • w by
      rw [sub_smul, sub_smul, one_smul]; abel]
    refine (norm_add_le _ _).trans ?_
    rw [norm_smul, norm_smul, Real.norm_eq_abs, Real.norm_eq_abs, abs_of_nonneg (by linarith : 0 ≤ 1 - k)]
    linarith

theorem cyl_radial_const {u P W ρ e d : ℝ} (hu : 0 ≤ u) (hu1 : u ≤ 1 / 1000) (hP : 0 ≤ P) (hρ : 0 ≤ ρ) (hρW : ρ ≤ W)
    (he0 : 0 ≤ e) (h1 : |e - ρ| ≤ 2 * u * P + 24 * u * W) (h2 : |d - e| ≤ 8 * u * e) :
    |d - ρ| ≤ u * (3 * P + 33 * W) := by
  have hW : 0 ≤ W := hρ.trans hρW
  obtain ⟨a, ha⟩ : ∃ a, a = u * P := ⟨_, rfl⟩
  obtain ⟨b, hb⟩ : ∃ b, b = u * W := ⟨_, rfl⟩
  have ha0 : 0 ≤ a := by rw [ha]; positivity
  have hb0 : 0 ≤ b := by rw [hb]; positivity
  have h3 : e ≤ W + (2 * a + 24 * b) := by
    have := (abs_le.mp h1).2
    rw [ha, hb]; linarith
  have h4 : 8 * u * e ≤ 8 * b + 8 * u * (2 * a + 24 * b) := by
    have := mul_le_mul_of_nonneg_left h3 (by positivity : 0 ≤ 8 * u)
    rw [hb] at this ⊢; linarith
  have h5 : 8 * u * (2 * a + 24 * b) ≤ 8 / 1000 * (2 * a + 24 * b) :=
    mul_le_mul_of_nonneg_right (by linarith) (by positivity)
  have h6 : |d - ρ| ≤ |d - e| + |e - ρ| := by
    have := abs_add_le (d - e) (e - ρ)
    rwa [sub_add_sub_cancel] at this
  have h7 : |e - ρ| ≤ 2 * a + 24 * b := by rw [ha, hb]; linarith
  have : u * (3 * P + 33 * W) = 3 * a + 33 * b := by rw [ha, hb]; ring
  rw [this]
  linarith

/-- C93: `cylinder.is_point_within(x)` under rounding is right up to a margin of
`η = u (3 ‖p‖ + 51 dist x p + 6 ‖v‖)`, where `p` is the centre of the base and `v` the axis vector: `True` for every point
whose `η`-neighbourhood is inside the solid cylinder, and `True` only within `η` of the solid cylinder. -/
theorem C93_is_point_within (h : StdRounding u fl) (hu : u ≤ 1 / 1000) {p v : E 3} {r : ℝ} {C : Cylinder ℝ}
    (hC : @Cylinder.new ℝ (rounded fl) (arr p) (arr v) r = .ok C) (x : E 3) :
    ∃ b, @Cylinder.isPointWithin ℝ (rounded fl) C (arr x) = .ok b ∧
      (Metric.closedBall x (u * (3 * ‖p‖ + 51 * dist x p + 6 * ‖v‖)) ⊆ solidCyl p v r → b = true) ∧
      (b = true → ∃ y ∈ solidCyl p v r, dist x y ≤ u * (3 * ‖p‖ + 51 * dist x p + 6 * ‖v‖)) := by
  classical
  have hu0 := h.nonneg
  have hε := h.eps_nonneg
  obtain ⟨hv, hr, rfl⟩ := cylinder_new_rd h (by linarith) hC
  obtain ⟨q, g1, g2⟩ := projectPoint_rd h p v x hv
  obtain ⟨d, hd, dr⟩ := distancePoint_rp h q x
  obtain ⟨s, hs, hse⟩ := planeSigned_rd h p v x hv
  have hl := (h.normv_rp le_rfl (CRP.refl (eps u) v)).abs_sub_le
  rw [show (0 + ((3 : ℕ) + 3) / 2 : ℝ) = 3 by norm_num, abs_of_nonneg (norm_nonneg _)] at hl
  obtain ⟨ℓ, hℓ⟩ : ∃ ℓ, ℓ = @normv ℝ (rounded fl) (arr v) := ⟨_, rfl⟩
  have hz := C73_is_zero h (by linarith) v
  have hb : @Cylinder.isPointWithin ℝ (rounded fl) ⟨arr p, arr v, r⟩ (arr x) =
      .ok (decide (d ≤ r) && (decide (0 ≤ s) && decide (s ≤ ℓ))) := by
    simp [Cylinder.isPointWithin, Cylinder.betweenCapPlanes, Line.new, Plane.new, newLinePlane, new1D_rd, hz, hv,
      Line.distancePoint, g1, wrapped_rd, hd, hs, le_rd, zero_rd, Cylinder.length, Vec.norm, hℓ]
  have x1 : Real.exp (1 * eps u) - 1 ≤ 2 * 1 * u := exp_eps_le2 h le_rfl (by linarith)
  have x12 : Real.exp (12 * eps u) - 1 ≤ 2 * 12 * u := exp_eps_le2 h (by norm_num) (by linarith)
  have x4 : Real.exp (4 * eps u) - 1 ≤ 2 * 4 * u := exp_eps_le2 h (by norm_num) (by linarith)
  have x9 : Real.exp (9 * eps u) - 1 ≤ 2 * 9 * u := exp_eps_le2 h (by norm_num) (by linarith)
  have x3 : Real.exp (3 * eps u) - 1 ≤ 2 * 3 * u := exp_eps_le2 h (by norm_num) (by linarith)
  rw [signedDist_eq, show ((3 * (3 : ℕ) + 9) / 2 : ℝ) = 9 by norm_num] at hse
  have d0 : 0 ≤ dist x p := dist_nonneg
  have k1 : |s - signedDist p v x| ≤ 18 * u * dist x p :=
    hse.trans (by linarith [mul_le_mul_of_nonneg_right x9 d0])
  have k2 : |ℓ - ‖v‖| ≤ 6 * u * ‖v‖ := by
    rw [hℓ]; exact hl.trans (by linarith [mul_le_mul_of_nonneg_right x3 (norm_nonneg v)])
  have k3 : |d - dist x (foot p v x)| ≤ u * (3 * ‖p‖ + 33 * dist x p) := by
    have e4 := dr.abs_sub_le
    rw [abs_of_nonneg dist_nonneg, show (((3 : ℕ) + 5) / 2 : ℝ) = 4 by norm_num] at e4
    refine cyl_radial_const hu0 hu (norm_nonneg p) dist_nonneg (foot_dist_le p v x hv 0 |>.trans_eq (by simp))
      (dist_nonneg (x := q) (y := x)) ?_ (e4.trans (by linarith [mul_le_mul_of_nonneg_right x4 (dist_nonneg (x := q) (y := x))]))
    have e5 : |dist q x - dist x (foot p v x)| ≤ dist q (foot p v x) := by
      rw [dist_comm x]; exact abs_dist_sub_le q (foot p v x) x
    refine e5.trans ?_
    have g3 : dist q (foot p v x) ≤ (Real.exp (1 * eps u) - 1) * ‖p‖ + (Real.exp (12 * eps u) - 1) * dist x p := by
      rw [dist_eq_norm]
      have e12 : (2 * ((3 : ℕ) : ℝ) + 6) = 12 := by norm_num
      rw [e12] at g2
      rw [one_mul]
      exact g2
    have := mul_le_mul_of_nonneg_right x1 (norm_nonneg p)
    have := mul_le_mul_of_nonneg_right x12 d0
    linarith
  have m1 := abs_le.mp k1
  have m2 := abs_le.mp k2
  have m3 := abs_le.mp k3
  refine ⟨_, hb, fun hball => ?_, fun ht => ?_⟩
  · have hη : 0 ≤ u * (3 * ‖p‖ + 51 * dist x p + 6 * ‖v‖) := by positivity
    obtain ⟨b1, b2, b3⟩ := ball_solidCyl hv hr hη hball
    have p0 : 0 ≤ u * ‖p‖ := by positivity
    have p1 : 0 ≤ u * dist x p := by positivity
    have p2 : 0 ≤ u * ‖v‖ := by positivity
    simp only [Bool.and_eq_true, decide_eq_true_eq]
    refine ⟨?_, ?_, ?_⟩ <;> nlinarith
  · simp only [Bool.and_eq_true, decide_eq_true_eq] at ht
    obtain ⟨t1, t2, t3⟩ := ht
    obtain ⟨y, hy, hdist⟩ := near_solidCyl (α := 18 * u * dist x p + 6 * u * ‖v‖) (β := u * (3 * ‖p‖ + 33 * dist x p))
      hv hr (by positivity) (by positivity) (x := x) (p := p) (by
        have : 0 ≤ 6 * u * ‖v‖ := by positivity
        linarith) (by linarith) (by linarith)
    exact ⟨y, hy, hdist.trans (by linarith)⟩

/-- C93: the midpoint of the axis of a cylinder is accepted in binary64. -/
example : ∃ C, @Cylinder.new ℝ (rounded (leftToRight (roundNearest 53))) (arr (vec3 0 0 0)) (arr (vec3 0 0 1)) 1 = .ok C ∧
    @Cylinder.isPointWithin ℝ (rounded (leftToRight (roundNearest 53))) C (arr (vec3 0 0 (1 / 2))) = .ok true := by
  classical
  have hv : vec3 0 0 1 ≠ 0 := by intro h; have := congrArg (fun x : E 3 => x 2) h; simp [vec3] at this
  have hC : @Cylinder.new ℝ (rounded (leftToRight (roundNearest 53))) (arr (vec3 0 0 0)) (arr (vec3 0 0 1)) 1 =
      .ok ⟨arr (vec3 0 0 0), arr (vec3 0 0 1), 1⟩ := by
    simp [Cylinder.new, new1D_rd, C73_is_zero std53 (by norm_num), hv, lt_rd, zero_rd]
  refine ⟨_, hC, ?_⟩
  obtain ⟨b, hb, h1, -⟩ := C93_is_point_within std53 (by norm_num) hC (vec3 0 0 (1 / 2))
  rw [hb, h1]
  have hz : ‖vec3 0 0 0‖ = 0 := by rw [norm_eq_zero]; ext i; fin_cases i <;> simp [vec3]
  have n1 : ‖vec3 0 0 1‖ = 1 := by
    rw [← abs_of_nonneg (norm_nonneg (vec3 0 0 1)), ← abs_one, ← sq_eq_sq_iff_abs_eq_abs, norm_sq3]; simp [vec3]
  have n2 : dist (vec3 0 0 (1 / 2)) (vec3 0 0 0) = 1 / 2 := by
    rw [dist_eq_norm, ← abs_of_nonneg (norm_nonneg _), show (1 / 2 : ℝ) = |1 / 2| by norm_num, ← sq_eq_sq_iff_abs_eq_abs, norm_sq3]
    simp [vec3]
  intro y hy
  rw [Metric.mem_closedBall, hz, n1, n2, dist_eq_norm] at hy
  have hy' : ‖y - vec3 0 0 (1 / 2)‖ ≤ 1 / 2 := hy.trans (by norm_num)
  have hs : ‖y - vec3 0 0 (1 / 2)‖ ^ 2 ≤ 1 / 4 := by nlinarith [norm_nonneg (y - vec3 0 0 (1 / 2))]
  rw [norm_sq3] at hs
  simp [vec3] at hs
  have h2 : (y 2 - 1 / 2) ^ 2 ≤ 1 / 4 := by
    have : (y 2 - 2⁻¹ : ℝ) = y 2 - 1 / 2 := by norm_num
    rw [this] at hs; nlinarith [sq_nonneg (y 0), sq_nonneg (y 1)]
  have h3 : y 0 ^ 2 + y 1 ^ 2 ≤ 1 := by nlinarith [sq_nonneg (y 2 - 2⁻¹)]
  refine ⟨y 2, vec3 (y 0) (y 1) 0, by nlinarith, by nlinarith, ?_, ?_, ?_⟩
  · rw [inner3]; simp [vec3]
  · have : ‖vec3 (y 0) (y 1) 0‖ ^ 2 ≤ 1 := by rw [norm_sq3]; simpa [vec3] using h3
    nlinarith [norm_nonneg (vec3 (y 0) (y 1) 0)]
  · ext i; fin_cases i <;> simp [vec3]

end SkSpatial
