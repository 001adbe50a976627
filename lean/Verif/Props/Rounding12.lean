import Verif.Props.Rounding11
/-! # C94: intersecting a plane and a line, and changing coordinates, under rounding -/

namespace SkSpatial
open StdRounding

variable {u : ℝ} {fl : Arith} {n : ℕ}

/-- The quotient of two perturbed numbers. -/
theorem quot_perturb {N N' D D' a b M W δ κ : ℝ} (hD : D ≠ 0) (hM : 0 ≤ M) (hδ : 0 ≤ δ) (hW : 0 ≤ W) (ha : 0 ≤ a)
    (hb : 0 ≤ b) (hκ : κ = M * δ / |D|) (hN : |N| ≤ M * W) (hN' : |N' - N| ≤ a * (M * W))
    (hD' : |D' - D| ≤ b * (M * δ)) (hb2 : b * κ ≤ 1 / 2) :
    D' ≠ 0 ∧ |N' / D' - N / D| * δ ≤ 2 * a * κ * W + 2 * b * κ ^ 2 * W ∧
      |N' / D' - N / D| * |D| ≤ (2 * a + 2 * b * κ) * (M * W) := by
  have hD0 : 0 < |D| := abs_pos.mpr hD
  have hκD : κ * |D| = M * δ := by rw [hκ, div_mul_cancel₀ _ hD0.ne']
  have hκ0 : 0 ≤ κ := by rw [hκ]; positivity
  have h1 : |D' - D| ≤ |D| / 2 := by
    rw [← hκD] at hD'
    have := mul_le_mul_of_nonneg_right hb2 hD0.le
    linarith
  have h2 : |D| / 2 ≤ |D'| := by
    have := abs_sub_abs_le_abs_sub D D'
    rw [abs_sub_comm] at this; linarith
  have hD'0 : D' ≠ 0 := abs_pos.mp (by linarith)
  refine ⟨hD'0, ?_⟩
  have e : N' / D' - N / D = ((N' - N) - N / D * (D' - D)) / D' := by field_simp; ring
  have h3 : |N / D| * |D| ≤ M * W := by rw [abs_div, div_mul_cancel₀ _ hD0.ne']; exact hN
  have h4 : |N / D * (D' - D)| ≤ b * κ * (M * W) := by
    rw [abs_mul]
    calc |N / D| * |D' - D| ≤ |N / D| * (b * (κ * |D|)) := by
          rw [hκD]; exact mul_le_mul_of_nonneg_left hD' (abs_nonneg _)
      _ = b * κ * (|N / D| * |D|) := by ring
      _ ≤ _ := mul_le_mul_of_nonneg_left h3 (by positivity)
  have h5 : |(N' - N) - N / D * (D' - D)| ≤ (a + b * κ) * (M * W) :=
    (abs_sub _ _).trans (by linarith)
  have h6 : |N' / D' - N / D| * |D| ≤ (2 * a + 2 * b * κ) * (M * W) := by
    rw [e, abs_div, div_mul_eq_mul_div, div_le_iff₀ (abs_pos.mpr hD'0)]
    calc _ ≤ (a + b * κ) * (M * W) * |D| := mul_le_mul_of_nonneg_right h5 hD0.le
      _ ≤ (a + b * κ) * (M * W) * (2 * |D'|) := mul_le_mul_of_nonneg_left (by linarith) (by positivity)
      _ = _ := by ring
  refine ⟨?_, h6⟩
  by_cases hM0 : M = 0
  · have : |N' / D' - N / D| * |D| ≤ 0 := by rw [hM0] at h6; simpa using h6
    have h7 : |N' / D' - N / D| = 0 := le_antisymm (by
      by_contra hc; push Not at hc; have := mul_pos hc hD0; linarith) (abs_nonneg _)
    rw [h7, zero_mul]; positivity
  · have hMp : 0 < M := lt_of_le_of_ne hM (Ne.symm hM0)
    have h8 : |N' / D' - N / D| * |D| * κ ≤ (2 * a + 2 * b * κ) * (M * W) * κ := mul_le_mul_of_nonneg_right h6 hκ0
    have h9 : |N' / D' - N / D| * |D| * κ = |N' / D' - N / D| * δ * M := by
      rw [mul_assoc, mul_comm |D|, hκD]; ring
    rw [h9] at h8
    refine le_of_mul_le_mul_right (h8.trans (le_of_eq ?_)) hMp
    ring

theorem point_const {u a b κ W Q s0 s e1 e2 : ℝ} (hu : 0 ≤ u) (hu1 : u ≤ 1 / 12) (hκ : 1 ≤ κ) (hW : 0 ≤ W) (hQ : 0 ≤ Q)
    (ha : a ≤ 1 / 2) (hbκ : b * κ ≤ 1 / 2) (h0 : s0 ≤ κ * W + (2 * a * κ * W + 2 * b * κ ^ 2 * W))
    (h1 : e1 ≤ 4 * u * s0) (hs : s ≤ s0 + e1) (h2 : e2 ≤ 2 * u * (Q + s)) :
    e1 + e2 ≤ u * (2 * Q + 20 * κ * W) := by
  obtain ⟨w, hw⟩ : ∃ w, w = κ * W := ⟨_, rfl⟩
  have hw0 : 0 ≤ w := by rw [hw]; positivity
  have h3 : s0 ≤ 3 * w := by
    have e3 : 2 * a * κ * W ≤ w := by rw [hw]; nlinarith [mul_nonneg (by linarith : 0 ≤ κ) hW]
    have e4 : 2 * b * κ ^ 2 * W ≤ w := by
      rw [hw, show 2 * b * κ ^ 2 * W = 2 * (b * κ) * (κ * W) by ring]
      nlinarith [mul_nonneg (by linarith : 0 ≤ κ) hW]
    linarith
  have h4 : e1 ≤ 12 * (u * w) := by nlinarith
  have h5 : s ≤ 4 * w := by nlinarith
  have h6 : e2 ≤ 2 * (u * Q) + 8 * (u * w) := by nlinarith
  have : u * (2 * Q + 20 * κ * W) = 2 * (u * Q) + 20 * (u * w) := by rw [hw]; ring
  rw [this]; linarith

theorem intersect_dist_const {u a b κ W Q n : ℝ} (hu : 0 ≤ u) (hn : 0 ≤ n) (hκ : 1 ≤ κ) (hW : 0 ≤ W) (ha : a ≤ 2 * (n + 2) * u)
    (hb : b ≤ 2 * (n + 1) * u) :
    u * (2 * Q + 20 * κ * W) + (2 * a * κ * W + 2 * b * κ ^ 2 * W) ≤ u * (2 * Q + (8 * n + 32) * κ ^ 2 * W) := by
  have hκW : κ * W ≤ κ ^ 2 * W := by nlinarith [mul_nonneg (by linarith : 0 ≤ κ) hW]
  have hκ0 : 0 ≤ κ * W := mul_nonneg (by linarith) hW
  have e3 : a * (κ * W) ≤ 2 * (n + 2) * u * (κ ^ 2 * W) := mul_le_mul ha hκW hκ0 (by positivity)
  have e4 : b * (κ ^ 2 * W) ≤ 2 * (n + 1) * u * (κ ^ 2 * W) := mul_le_mul_of_nonneg_right hb (by positivity)
  have e5 : u * (κ * W) ≤ u * (κ ^ 2 * W) := mul_le_mul_of_nonneg_left hκW hu
  linarith

theorem intersect_const {u a b κ W Q n : ℝ} (hu : 0 ≤ u) (hn : 0 ≤ n) (hκ : 1 ≤ κ) (hW : 0 ≤ W) (ha : a ≤ 2 * (n + 2) * u)
    (hb : b ≤ 2 * (n + 1) * u) :
    (2 * a + 2 * b * κ) * W + u * (2 * Q + 20 * κ * W) ≤ u * (2 * Q + (8 * n + 32) * κ * W) := by
  have hκW : W ≤ κ * W := by nlinarith
  have hκ0 : 0 ≤ κ * W := mul_nonneg (by linarith) hW
  have e3 : a * W ≤ 2 * (n + 2) * u * (κ * W) := mul_le_mul ha hκW hW (by positivity)
  have e4 : b * (κ * W) ≤ 2 * (n + 1) * u * (κ * W) := mul_le_mul_of_nonneg_right hb hκ0
  linarith

/-- C94: `plane.intersect_line(line)` under rounding, for the plane through `p` with normal `m` and the line through `q`
along `d`.  With `κ = 1 / |cos|` for the angle between normal and direction and `W = dist q p`: if `4 (n+2) u κ ≤ 1` it
returns a point `y`

* within `u (2 ‖q‖ + (8n+32) κ² W)` of the exact intersection point,
* within `u (2 ‖q‖ + (8n+32) κ W)` of the plane,
* within `u (2 ‖q‖ + 20 κ W)` of the line. -/
theorem C94_plane_intersect_line [NeZero n] (h : StdRounding u fl) {p m q d : E n} {P : Plane ℝ} {L : Line ℝ}
    (hP : @Plane.new ℝ (rounded fl) (arr p) (arr m) = .ok P) (hL : @Line.new ℝ (rounded fl) (arr q) (arr d) = .ok L)
    (hc : 4 * (n + 2) * u ≤ |cosE m d|) (hne : inner ℝ m d ≠ (0 : ℝ)) :
    ∃ y x : E n, @Plane.intersectLine ℝ (rounded fl) (@Tol.default ℝ (rounded fl)) P L = .ok (arr y) ∧
      x ∈ planeSet p m ∧ x ∈ lineSet q d ∧
      dist y x ≤ u * (2 * ‖q‖ + (8 * n + 32) * |cosE m d|⁻¹ ^ 2 * dist q p) ∧
      |signedDist p m y| ≤ u * (2 * ‖q‖ + (8 * n + 32) * |cosE m d|⁻¹ * dist q p) ∧
      ∃ z ∈ lineSet q d, dist y z ≤ u * (2 * ‖q‖ + 20 * |cosE m d|⁻¹ * dist q p) := by
  have hu0 := h.nonneg
  have hε := h.eps_nonneg
  have hm : m ≠ 0 := by rintro rfl; simp at hne
  have hd : d ≠ 0 := by rintro rfl; simp at hne
  have hm0 : 0 < ‖m‖ := norm_pos_iff.mpr hm
  have hd0 : 0 < ‖d‖ := norm_pos_iff.mpr hd
  have hn0 : (0 : ℝ) ≤ n := Nat.cast_nonneg n
  have hn1 : (1 : ℝ) ≤ n := by exact_mod_cast Nat.one_le_iff_ne_zero.mpr (NeZero.ne n)
  obtain ⟨D, hD⟩ : ∃ D : ℝ, D = inner ℝ m d := ⟨_, rfl⟩
  rw [← hD] at hne
  have hD0 : 0 < |D| := abs_pos.mpr hne
  obtain ⟨κ, hκ⟩ : ∃ κ, κ = |cosE m d|⁻¹ := ⟨_, rfl⟩
  have hκ' : κ = ‖m‖ * ‖d‖ / |D| := by
    rw [hκ, cosE, ← hD, abs_div, abs_of_pos (by positivity : 0 < ‖m‖ * ‖d‖), inv_div]
  have hcs : |D| ≤ ‖m‖ * ‖d‖ := by rw [hD]; exact abs_real_inner_le_norm _ _
  have hκ1 : 1 ≤ κ := by rw [hκ', le_div_iff₀ hD0]; linarith
  have hcpos : 0 < |cosE m d| := by
    rw [← inv_pos, ← hκ]; linarith
  have hcκ : 4 * (n + 2) * u * κ ≤ 1 := by
    rw [hκ, ← div_eq_mul_inv, div_le_one hcpos]; exact hc
  have hnu : 4 * (n + 2) * u ≤ 1 := by
    have : 0 ≤ 4 * (n + 2) * u := by positivity
    nlinarith
  have hu12 : u ≤ 1 / 12 := by nlinarith
  obtain rfl : P = ⟨arr p, arr m⟩ := by
    have := ((C73_constructors h (by linarith) p m).1 hm).2
    rw [this] at hP; cases hP; rfl
  obtain rfl : L = ⟨arr q, arr d⟩ := by
    have := ((C73_constructors h (by linarith) q d).1 hd).1
    rw [this] at hL; cases hL; rfl
  obtain ⟨w, hw, cw⟩ := from_crp h p q
  obtain ⟨N', hN'⟩ : ∃ N', N' = @dotv ℝ (rounded fl) (arr m) (arr w) := ⟨_, rfl⟩
  obtain ⟨D', hD'⟩ : ∃ D', D' = @dotv ℝ (rounded fl) (arr m) (arr d) := ⟨_, rfl⟩
  have eN := h.dotv_abs' le_rfl zero_le_one (CRP.refl (eps u) m) cw
  have eD := h.dotv_abs' le_rfl le_rfl (CRP.refl (eps u) m) (CRP.refl (eps u) d)
  rw [← hN', ← dist_eq_norm] at eN
  rw [← hD', ← hD] at eD
  obtain ⟨N, hN⟩ : ∃ N : ℝ, N = inner ℝ m (q - p) := ⟨_, rfl⟩
  obtain ⟨W, hW⟩ : ∃ W, W = dist q p := ⟨_, rfl⟩
  have hW0 : 0 ≤ W := by rw [hW]; exact dist_nonneg
  rw [← hN, ← hW] at eN
  have hNW : |N| ≤ ‖m‖ * W := by rw [hN, hW, dist_eq_norm]; exact abs_real_inner_le_norm _ _
  obtain ⟨a, ha⟩ : ∃ a, a = Real.exp ((0 + 1 + 1 + n) * eps u) - 1 := ⟨_, rfl⟩
  obtain ⟨b, hb⟩ : ∃ b, b = Real.exp ((0 + 0 + 1 + n) * eps u) - 1 := ⟨_, rfl⟩
  have ha0 : 0 ≤ a := by rw [ha]; linarith [one_le_exp_eps h (k := 0 + 1 + 1 + n) (by positivity)]
  have hb0 : 0 ≤ b := by rw [hb]; linarith [one_le_exp_eps h (k := 0 + 0 + 1 + n) (by positivity)]
  have ha1 : a ≤ 2 * (n + 2) * u := by
    rw [ha]; exact (exp_eps_le2 h (by linarith) (by linarith)).trans (by linarith)
  have hb1 : b ≤ 2 * (n + 1) * u := by
    rw [hb]; exact (exp_eps_le2 h (by linarith) (by linarith)).trans (by linarith)
  rw [← ha] at eN
  rw [← hb] at eD
  have hbκ : b * κ ≤ 1 / 2 := by
    have : b * κ ≤ 2 * (n + 2) * u * κ := mul_le_mul_of_nonneg_right (by linarith) (by linarith)
    linarith
  obtain ⟨hD'0, t1, t2⟩ := quot_perturb hne hm0.le hd0.le hW0 ha0 hb0 hκ' hNW eN eD hbκ
  obtain ⟨s, hs, hsi⟩ := smul_rd (fl := fl) (fl (-N' / D')) d
  obtain ⟨y, hy, hyi⟩ := vadd_rd (fl := fl) q s
  have hcomp : @Plane.intersectLine ℝ (rounded fl) (@Tol.default ℝ (rounded fl)) ⟨arr p, arr m⟩ ⟨arr q, arr d⟩ =
      .ok (arr y) := by
    simp only [Plane.intersectLine, Vec.isPerpendicular, dot_rd, ok_bind, ← hD', isclose_zero_rd h (by linarith : u ≤ 1 / 2),
      hD'0, decide_false, Bool.false_eq_true, if_false, hw, ← hN', neg_rd, div_rd, hs, hy]
  -- the exact parameter and the parameter before the last roundings
  obtain ⟨t, ht⟩ : ∃ t, t = -(N / D) := ⟨_, rfl⟩
  obtain ⟨t', ht'⟩ : ∃ t', t' = -N' / D' := ⟨_, rfl⟩
  have htt : |t' - t| = |N' / D' - N / D| := by
    rw [ht, ht', neg_div, ← abs_neg]; ring_nf
  rw [← htt] at t1 t2
  have hcs : CRP (eps u) 2 s (t' • d) := by
    intro i
    rw [hsi, ← ht']
    have := h.step ((h.rp t').mul (RP.refl (eps u) (d i)))
    rw [show (1 + 0 + 1 : ℝ) = 2 by norm_num] at this
    simpa using this
  have x2 : Real.exp (2 * eps u) - 1 ≤ 2 * 2 * u := exp_eps_le2 h (by norm_num) (by linarith)
  have x1 : Real.exp (1 * eps u) - 1 ≤ 2 * 1 * u := exp_eps_le2 h le_rfl (by linarith)
  have f1 : ‖s - t' • d‖ ≤ 4 * u * ‖t' • d‖ :=
    (CRP.norm_sub_le hcs (by positivity)).trans (by linarith [mul_le_mul_of_nonneg_right x2 (norm_nonneg (t' • d))])
  have hcy : CRP (eps u) 1 y (q + s) := fun i => by rw [hyi]; exact h.rp _
  have f2 : ‖y - (q + s)‖ ≤ 2 * u * (‖q‖ + ‖s‖) :=
    (CRP.norm_sub_le hcy (by positivity)).trans (by
      have e1 := mul_le_mul_of_nonneg_right x1 (norm_nonneg (q + s))
      have e2 := mul_le_mul_of_nonneg_left (norm_add_le q s) (by positivity : 0 ≤ 2 * u)
      linarith)
  have f3 : ‖t' • d‖ ≤ κ * W + (2 * a * κ * W + 2 * b * κ ^ 2 * W) := by
    have e1 : |t| * ‖d‖ ≤ κ * W := by
      rw [ht, abs_neg, abs_div, hκ', div_mul_eq_mul_div, div_mul_eq_mul_div]
      refine div_le_div_of_nonneg_right ?_ hD0.le
      have := mul_le_mul_of_nonneg_right hNW hd0.le
      linarith
    have e2 : |t'| ≤ |t| + |t' - t| := by
      have := abs_add_le t (t' - t); rwa [add_sub_cancel] at this
    rw [norm_smul, Real.norm_eq_abs]
    have e3 := mul_le_mul_of_nonneg_right e2 hd0.le
    linarith
  have f4 : ‖s‖ ≤ ‖t' • d‖ + ‖s - t' • d‖ := by
    have := norm_add_le (t' • d) (s - t' • d); rwa [add_sub_cancel] at this
  have f5 := point_const hu0 hu12 hκ1 hW0 (norm_nonneg q) (by linarith : a ≤ 1 / 2) hbκ f3 f1 f4 f2
  have hz : dist y (q + t' • d) ≤ u * (2 * ‖q‖ + 20 * κ * W) := by
    refine le_trans ?_ f5
    rw [dist_eq_norm, show y - (q + t' • d) = (s - t' • d) + (y - (q + s)) by abel]
    exact norm_add_le _ _
  have hx1 : signedDist p m (q + t • d) = 0 := by
    rw [signedDist, show q + t • d - p = (q - p) + t • d by abel, inner_add_left, real_inner_smul_left, real_inner_comm,
      ← hN, real_inner_comm, ← hD, ht]
    field_simp
    ring
  refine ⟨y, q + t • d, hcomp, ?_, ⟨t, rfl⟩, ?_, ?_, q + t' • d, ⟨t', rfl⟩, ?_⟩
  · rw [signedDist, div_eq_zero_iff] at hx1
    exact hx1.resolve_right hm0.ne'
  · rw [← hκ, ← hW]
    have e1 : dist (q + t' • d) (q + t • d) ≤ 2 * a * κ * W + 2 * b * κ ^ 2 * W := by
      rw [dist_eq_norm, add_sub_add_left_eq_sub, ← sub_smul, norm_smul, Real.norm_eq_abs]; exact t1
    have e2 := (dist_triangle y (q + t' • d) (q + t • d)).trans (add_le_add hz e1)
    refine e2.trans ?_
    exact intersect_dist_const hu0 hn0 hκ1 hW0 ha1 hb1
  · rw [← hκ, ← hW]
    have e1 : |signedDist p m (q + t' • d)| ≤ (2 * a + 2 * b * κ) * W := by
      have : signedDist p m (q + t' • d) = (t' - t) * D / ‖m‖ := by
        have e : signedDist p m (q + t' • d) = signedDist p m (q + t • d) + (t' - t) * D / ‖m‖ := by
          rw [signedDist, signedDist, show q + t' • d - p = (q + t • d - p) + (t' - t) • d by rw [sub_smul]; abel,
            inner_add_left, real_inner_smul_left, real_inner_comm m d, ← hD]
          ring
        rw [e, hx1, zero_add]
      rw [this, abs_div, abs_mul, abs_of_pos hm0, div_le_iff₀ hm0]
      linarith
    have e2 := signedDist_lip p m y (q + t' • d)
    have e3 := abs_add_le (signedDist p m (q + t' • d)) (signedDist p m y - signedDist p m (q + t' • d))
    rw [add_sub_cancel] at e3
    exact e3.trans ((add_le_add e1 (e2.trans hz)).trans (intersect_const hu0 hn0 hκ1 hW0 ha1 hb1))
  · rw [← hκ, ← hW]; exact hz

/-- C94: a plane and a line at an angle, in binary64. -/
example : ∃ y x : E 3, @Plane.intersectLine ℝ (rounded (leftToRight (roundNearest 53))) (@Tol.default ℝ (rounded (leftToRight (roundNearest 53))))
      ⟨arr (vec3 (1 / 10) 0 2), arr (vec3 0 0 1)⟩ ⟨arr (vec3 1 1 (1 / 3)), arr (vec3 0 3 4)⟩ = .ok (arr y) ∧
    x ∈ planeSet (vec3 (1 / 10) 0 2) (vec3 0 0 1) ∧ x ∈ lineSet (vec3 1 1 (1 / 3)) (vec3 0 3 4) := by
  have hm : vec3 0 0 1 ≠ 0 := by intro h; have := congrArg (fun x : E 3 => x 2) h; simp [vec3] at this
  have hd : vec3 0 3 4 ≠ 0 := by intro h; have := congrArg (fun x : E 3 => x 2) h; simp [vec3] at this
  have hi : (inner ℝ (vec3 0 0 1) (vec3 0 3 4) : ℝ) = 4 := by rw [inner3]; simp [vec3]
  have n1 : ‖vec3 0 0 1‖ = 1 := by
    rw [← abs_of_nonneg (norm_nonneg (vec3 0 0 1)), ← abs_one, ← sq_eq_sq_iff_abs_eq_abs, norm_sq3]; simp [vec3]
  have n2 : ‖vec3 0 3 4‖ = 5 := by
    rw [← abs_of_nonneg (norm_nonneg (vec3 0 3 4)), show (5 : ℝ) = |5| by norm_num, ← sq_eq_sq_iff_abs_eq_abs, norm_sq3]
    simp [vec3]; norm_num
  have hc : cosE (vec3 0 0 1) (vec3 0 3 4) = 4 / 5 := by rw [cosE, hi, n1, n2]; norm_num
  obtain ⟨y, x, h1, h2, h3, -⟩ := C94_plane_intersect_line std53
    ((C73_constructors std53 (by norm_num) (vec3 (1 / 10) 0 2) (vec3 0 0 1)).1 hm).2
    ((C73_constructors std53 (by norm_num) (vec3 1 1 (1 / 3)) (vec3 0 3 4)).1 hd).1
    (by rw [hc]; norm_num) (by rw [hi]; norm_num)
  exact ⟨y, x, h1, h2, h3⟩

end SkSpatial
