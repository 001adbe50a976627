import Verif.Props.Rounding3
import Verif.Model.Cylinder
import Verif.Model.Sphere
/-! # C78: distances to planes, lines, circles and spheres under rounding -/

namespace SkSpatial
open StdRounding

variable {u : ℝ} {fl : Arith} {n : ℕ}

theorem CRP.norm_sub_le {ε k : ℝ} {z d : E n} (h : CRP ε k z d) (hk : 0 ≤ k * ε) :
    ‖z - d‖ ≤ (Real.exp (k * ε) - 1) * ‖d‖ := by
  have h1 : 0 ≤ Real.exp (k * ε) - 1 := by linarith [Real.one_le_exp hk]
  rw [← abs_of_nonneg (norm_nonneg (z - d)), ← abs_of_nonneg h1, ← abs_of_nonneg (norm_nonneg d), ← abs_mul]
  refine sq_le_sq.mp ?_
  rw [mul_pow, EuclideanSpace.norm_sq_eq, EuclideanSpace.norm_sq_eq, Finset.mul_sum]
  refine Finset.sum_le_sum fun i _ => ?_
  rw [← mul_pow]
  refine pow_le_pow_left₀ (norm_nonneg _) ?_ 2
  simpa using (h i).abs_sub_le

theorem one_le_exp_eps (h : StdRounding u fl) {k : ℝ} (hk : 0 ≤ k) : 1 ≤ Real.exp (k * eps u) :=
  Real.one_le_exp (mul_nonneg hk h.eps_nonneg)

/-! ### Planes -/

theorem planeSigned_rd [NeZero n] (h : StdRounding u fl) (p m x : E n) (hm : m ≠ 0) :
    ∃ s, @Plane.distancePointSigned ℝ (rounded fl) ⟨arr p, arr m⟩ (arr x) = .ok s ∧
      |s - inner ℝ (‖m‖⁻¹ • m) (x - p)| ≤ (Real.exp ((3 * n + 9) / 2 * eps u) - 1) * dist x p := by
  obtain ⟨z, hz, hi⟩ := fromPoints_rd fl p x
  have hc : CRP (eps u) 1 z (x - p) := fun i => by rw [hi]; exact h.rp _
  obtain ⟨w, hw, hcw⟩ := unit_rd h m hm
  refine ⟨@dotv ℝ (rounded fl) (arr w) (arr z), ?_, ?_⟩
  · simp only [Plane.distancePointSigned, hz, ok_bind, Vec.scalarProjection, hw, dot_rd]
  · have := h.dotv_abs' (by positivity) zero_le_one hcw hc
    have h1 : ‖‖m‖⁻¹ • m‖ = 1 := by
      rw [norm_smul, norm_inv, norm_norm, inv_mul_cancel₀ (norm_ne_zero_iff.mpr hm)]
    rw [h1, one_mul, ← dist_eq_norm] at this
    rw [show ((3 * n + 9) / 2 : ℝ) = (n + 5) / 2 + 1 + 1 + n by ring]
    exact this

theorem signedDist_eq (p m x : E n) : inner ℝ (‖m‖⁻¹ • m) (x - p) = signedDist p m x := by
  rw [signedDist, real_inner_smul_left, real_inner_comm, div_eq_inv_mul]

/-- C78: for a plane with normal `m ≠ 0`, the rounded `distance_point_signed(x)` and `distance_point(x)`
differ from the exact ones by at most `((1-u)^(-(3n+9)/2) - 1) * dist x p`, where `p` is the plane's point;
so `side_point(x)` is right whenever the exact distance is larger than that. -/
theorem C78_plane_distance [NeZero n] (h : StdRounding u fl) (p m x : E n) (hm : m ≠ 0) :
    ∃ s, @Plane.distancePointSigned ℝ (rounded fl) ⟨arr p, arr m⟩ (arr x) = .ok s ∧
      @Plane.distancePoint ℝ (rounded fl) ⟨arr p, arr m⟩ (arr x) = .ok |s| ∧
      |s - signedDist p m x| ≤ (((1 - u) ^ ((3 * n + 9) / 2 : ℝ))⁻¹ - 1) * dist x p ∧
      ((((1 - u) ^ ((3 * n + 9) / 2 : ℝ))⁻¹ - 1) * dist x p < |signedDist p m x| →
        @Plane.sidePoint ℝ (rounded fl) ⟨arr p, arr m⟩ (arr x) =
          .ok (if 0 < signedDist p m x then 1 else -1)) := by
  obtain ⟨s, hs, he⟩ := planeSigned_rd h p m x hm
  rw [signedDist_eq, h.exp_eps] at he
  refine ⟨s, hs, by simp only [Plane.distancePoint, hs, ok_bind, pure_ok, abs_rd], he, fun hlt => ?_⟩
  simp only [Plane.sidePoint, hs, ok_bind, intSign_rd]
  have h1 := abs_le.mp he
  by_cases hp : 0 < signedDist p m x
  · rw [abs_of_pos hp] at hlt
    rw [if_pos hp, if_pos (by linarith)]
  · rw [abs_of_nonpos (not_lt.mp hp)] at hlt
    rw [if_neg hp, if_neg (by linarith), if_pos (by linarith)]

/-! ### Lines -/

theorem projectPoint_rd [NeZero n] (h : StdRounding u fl) (p v x : E n) (hv : v ≠ 0) :
    ∃ q : E n, @Line.projectPoint ℝ (rounded fl) ⟨arr p, arr v⟩ (arr x) = .ok (arr q) ∧
      ‖q - foot p v x‖ ≤ (Real.exp (eps u) - 1) * ‖p‖ +
        (Real.exp ((2 * n + 6) * eps u) - 1) * dist x p := by
  have hε := h.eps_nonneg
  obtain ⟨w, hw, hi⟩ := fromPoints_rd fl p x
  have hc : CRP (eps u) 1 w (x - p) := fun i => by rw [hi]; exact h.rp _
  obtain ⟨D, hD⟩ : ∃ D, D = @dotv ℝ (rounded fl) (arr v) (arr w) := ⟨_, rfl⟩
  obtain ⟨V, hV⟩ : ∃ V, V = @dotv ℝ (rounded fl) (arr v) (arr v) := ⟨_, rfl⟩
  have hD' := h.dotv_abs' le_rfl zero_le_one (CRP.refl _ v) hc
  have hV' := h.dotv_self_rp le_rfl (CRP.refl _ v)
  rw [← hD] at hD'
  rw [← hV] at hV'
  obtain ⟨s, hs, hsi⟩ := smul_rd (fl := fl) (fl (D / V)) v
  obtain ⟨q, hq, hqi⟩ := vadd_rd (fl := fl) p s
  refine ⟨q, ?_, ?_⟩
  · simp only [Line.projectPoint, hw, ok_bind, Vec.projectVector, dot_rd, ← hD, ← hV, pure_ok, div_rd, hs, hq]
  · have hv0 : 0 < ‖v‖ := norm_pos_iff.mpr hv
    obtain ⟨W, hW⟩ : ∃ W, W = dist x p := ⟨_, rfl⟩
    have hW0 : 0 ≤ W := by rw [hW]; exact dist_nonneg
    rw [← dist_eq_norm, ← hW] at hD'
    obtain ⟨A, hA⟩ : ∃ A, A = Real.exp ((0 + 1 + 1 + n) * eps u) := ⟨_, rfl⟩
    obtain ⟨B, hB⟩ : ∃ B, B = Real.exp ((n + 3) * eps u) := ⟨_, rfl⟩
    obtain ⟨C, hC⟩ : ∃ C, C = Real.exp (eps u) := ⟨_, rfl⟩
    have hA1 : 1 ≤ A := by rw [hA]; exact one_le_exp_eps h (by positivity)
    have hB1 : 1 ≤ B := by rw [hB]; exact one_le_exp_eps h (by positivity)
    have hC1 : 1 ≤ C := by rw [hC]; exact Real.one_le_exp hε
    rw [← hA] at hD'
    -- the exact multiple of `v` that `s` perturbs
    obtain ⟨s₀, hs₀⟩ : ∃ s₀ : E n, s₀ = (D / ‖v‖ ^ 2) • v := ⟨_, rfl⟩
    have hcs : CRP (eps u) (n + 3) s s₀ := by
      intro i
      rw [hsi, hs₀]
      have := h.step ((h.step ((RP.refl (eps u) D).div hV')).mul (RP.refl (eps u) (v i)))
      rw [show (0 : ℝ) + (2 * 0 + 1 + n) + 1 + 0 + 1 = n + 3 by ring] at this
      simpa using this
    have e1 := CRP.norm_sub_le hcs (by positivity)
    rw [← hB] at e1
    obtain ⟨I, hI⟩ : ∃ I : ℝ, I = inner ℝ v (x - p) := ⟨_, rfl⟩
    rw [← hI] at hD'
    have hIW : |I| ≤ ‖v‖ * W := by
      rw [hI, hW, dist_eq_norm]; exact abs_real_inner_le_norm _ _
    have hDb : |D| ≤ A * (‖v‖ * W) := by
      calc |D| = |(D - I) + I| := by ring_nf
        _ ≤ _ := abs_add_le _ _
        _ ≤ _ := by linarith
    have nsmul : ∀ c : ℝ, ∀ b : ℝ, |c| ≤ b * (‖v‖ * W) → ‖(c / ‖v‖ ^ 2) • v‖ ≤ b * W := by
      intro c b hcb
      rw [norm_smul, Real.norm_eq_abs, abs_div, abs_of_pos (by positivity : (0:ℝ) < ‖v‖ ^ 2), div_mul_eq_mul_div,
        div_le_iff₀ (by positivity)]
      calc |c| * ‖v‖ ≤ b * (‖v‖ * W) * ‖v‖ := by gcongr
        _ = b * W * ‖v‖ ^ 2 := by ring
    have n0 : ‖s₀‖ ≤ A * W := by rw [hs₀]; exact nsmul _ _ hDb
    have n1 : ‖s₀ - (I / ‖v‖ ^ 2) • v‖ ≤ (A - 1) * W := by
      rw [hs₀, ← sub_smul, ← sub_div]; exact nsmul _ _ hD'
    have n2 : ‖s - (I / ‖v‖ ^ 2) • v‖ ≤ (A * B - 1) * W := by
      calc ‖s - (I / ‖v‖ ^ 2) • v‖ = ‖(s - s₀) + (s₀ - (I / ‖v‖ ^ 2) • v)‖ := by congr 1; abel
        _ ≤ ‖s - s₀‖ + ‖s₀ - (I / ‖v‖ ^ 2) • v‖ := norm_add_le _ _
        _ ≤ (B - 1) * (A * W) + (A - 1) * W :=
            add_le_add (e1.trans (mul_le_mul_of_nonneg_left n0 (by linarith))) n1
        _ = _ := by ring
    have n3 : ‖(I / ‖v‖ ^ 2) • v‖ ≤ 1 * W := nsmul _ _ (by rw [one_mul]; exact hIW)
    have n4 : ‖s‖ ≤ A * B * W := by
      calc ‖s‖ = ‖(s - (I / ‖v‖ ^ 2) • v) + (I / ‖v‖ ^ 2) • v‖ := by congr 1; abel
        _ ≤ _ := norm_add_le _ _
        _ ≤ _ := by linarith
    have hcq : CRP (eps u) 1 q (p + s) := fun i => by rw [hqi]; exact h.rp _
    have n5 := CRP.norm_sub_le hcq (by linarith)
    rw [one_mul, ← hC] at n5
    have n6 : ‖p + s‖ ≤ ‖p‖ + A * B * W := (norm_add_le _ _).trans (by linarith)
    have hABC : Real.exp ((2 * n + 6) * eps u) = A * B * C := by
      rw [hA, hB, hC, ← Real.exp_add, ← Real.exp_add]; congr 1; ring
    rw [hABC, foot, real_inner_comm, ← hI, ← hW, ← hC]
    calc ‖q - (p + (I / ‖v‖ ^ 2) • v)‖ = ‖(q - (p + s)) + (s - (I / ‖v‖ ^ 2) • v)‖ := by congr 1; abel
      _ ≤ ‖q - (p + s)‖ + ‖s - (I / ‖v‖ ^ 2) • v‖ := norm_add_le _ _
      _ ≤ (C - 1) * (‖p‖ + A * B * W) + (A * B - 1) * W :=
          add_le_add (n5.trans (mul_le_mul_of_nonneg_left n6 (by linarith))) n2
      _ = _ := by ring

/-- C78: the rounded `line.project_point(x)` is within `u/(1-u) ‖p‖ + ((1-u)^(-(2n+6)) - 1) dist x p` of the exact
foot of the perpendicular, where `p` is the line's point. -/
theorem C78_line_project [NeZero n] (h : StdRounding u fl) (p v x : E n) (hv : v ≠ 0) :
    ∃ q : E n, @Line.projectPoint ℝ (rounded fl) ⟨arr p, arr v⟩ (arr x) = .ok (arr q) ∧
      dist q (foot p v x) ≤ ((1 - u)⁻¹ - 1) * ‖p‖ + (((1 - u) ^ (2 * n + 6))⁻¹ - 1) * dist x p := by
  obtain ⟨q, h1, h2⟩ := projectPoint_rd h p v x hv
  refine ⟨q, h1, ?_⟩
  have e1 := h.exp_eps 1
  rw [one_mul, Real.rpow_one] at e1
  have e2 := h.exp_eps ((2 * n + 6 : ℕ) : ℝ)
  rw [Real.rpow_natCast] at e2
  push_cast at e2
  rw [e1, e2] at h2
  rw [dist_eq_norm]; exact h2

/-- C78: the rounded `line.distance_point(x)`: up to a relative error `(1-u)^(-(n+5)/2) - 1`, it is within the
bound of `C78_line_project` of the exact distance. -/
theorem C78_line_distance [NeZero n] (h : StdRounding u fl) (p v x : E n) (hv : v ≠ 0) :
    ∃ d e, @Line.distancePoint ℝ (rounded fl) ⟨arr p, arr v⟩ (arr x) = .ok d ∧
      ApproxRel u ((n + 5) / 2) d e ∧
      |e - dist x (foot p v x)| ≤ ((1 - u)⁻¹ - 1) * ‖p‖ + (((1 - u) ^ (2 * n + 6))⁻¹ - 1) * dist x p := by
  obtain ⟨q, h1, h2⟩ := C78_line_project h p v x hv
  obtain ⟨d, hd, hr⟩ := distancePoint_rp h q x
  refine ⟨d, dist q x, ?_, h.approxRel hr dist_nonneg, ?_⟩
  · simp only [Line.distancePoint, wrapped_rd, h1, ok_bind, hd]
  · refine le_trans ?_ h2
    rw [dist_comm x]
    exact abs_dist_sub_le q (foot p v x) x

/-- The exact foot is what the exact method returns, so C78 compares the rounded method with the exact one. -/
theorem foot_eq [NeZero n] (p v x : E n) :
    Line.projectPoint ⟨arr p, arr v⟩ (arr x) = .ok (arr (foot p v x)) := by
  simp only [Line.projectPoint, Vec.fromPoints, vsub_arr, ok_bind, new1D_arr, Vec.projectVector, dot_arr,
    pure_ok, div_real, smul_arr, vadd_arr, foot, real_inner_self_eq_norm_sq, real_inner_comm]

theorem signedDist_exact [NeZero n] (p m x : E n) (hm : m ≠ 0) :
    Plane.distancePointSigned ⟨arr p, arr m⟩ (arr x) = .ok (signedDist p m x) := by
  have : ‖m‖ ≠ 0 := norm_ne_zero_iff.mpr hm
  simp only [Plane.distancePointSigned, Vec.fromPoints, vsub_arr, ok_bind, new1D_arr, Vec.scalarProjection,
    Vec.unit, Vec.norm, normv_arr, eq_real, zero_real, this, decide_false, Bool.false_eq_true, if_false,
    sdiv_arr, dot_arr, signedDist_eq]

/-! ### Circles and spheres -/

/-- C78: for a circle or sphere with center `c` and radius `r`, the rounded `distance_point(x)` differs from
the exact distance `|dist c x - r|` by at most `((1-u)^(-(n+7)/2) - 1) (dist c x + r)`. -/
theorem C78_sphere_distance [NeZero n] (h : StdRounding u fl) (c x : E n) (r : ℝ) (hr : 0 < r) :
    ∃ d, @Circle.distancePoint ℝ (rounded fl) ⟨arr c, r⟩ (arr x) = .ok d ∧
      @Sphere.distancePoint ℝ (rounded fl) ⟨arr c, r⟩ (arr x) = .ok d ∧
      |d - (|dist c x - r|)| ≤ (((1 - u) ^ ((n + 7) / 2 : ℝ))⁻¹ - 1) * (dist c x + r) := by
  have hε := h.eps_nonneg
  obtain ⟨D, hD, hDr⟩ := distancePoint_rp h c x
  refine ⟨|fl (D - r)|,
    by simp only [Circle.distancePoint, baseDistancePoint, hD, ok_bind, pure_ok, abs_rd, sub_rd],
    by simp only [Sphere.distancePoint, baseDistancePoint, hD, ok_bind, pure_ok, abs_rd, sub_rd], ?_⟩
  have e1 := hDr.abs_sub_le
  rw [abs_of_nonneg dist_nonneg] at e1
  have e2 := (h.rp (D - r)).abs_sub_le
  rw [← h.exp_eps]
  obtain ⟨A, hA⟩ : ∃ A, A = Real.exp ((n + 5) / 2 * eps u) := ⟨_, rfl⟩
  obtain ⟨B, hB⟩ : ∃ B, B = Real.exp (1 * eps u) := ⟨_, rfl⟩
  have hAB : Real.exp ((n + 7) / 2 * eps u) = A * B := by
    rw [hA, hB, ← Real.exp_add]; congr 1; ring
  have hA1 : 1 ≤ A := by rw [hA]; exact one_le_exp_eps h (by positivity)
  have hB1 : 1 ≤ B := by rw [hB]; exact one_le_exp_eps h zero_le_one
  rw [← hA] at e1
  rw [← hB] at e2
  rw [hAB]
  obtain ⟨δ, hδ⟩ : ∃ δ, δ = dist c x := ⟨_, rfl⟩
  have hδ0 : 0 ≤ δ := by rw [hδ]; exact dist_nonneg
  rw [← hδ] at e1 ⊢
  have e3 : |D - r| ≤ A * δ + r := by
    have := abs_le.mp e1
    rw [abs_le]; constructor <;> nlinarith
  calc |(|fl (D - r)| - |δ - r|)| ≤ |fl (D - r) - (δ - r)| := abs_abs_sub_abs_le _ _
    _ = |(fl (D - r) - (D - r)) + (D - δ)| := by ring_nf
    _ ≤ |fl (D - r) - (D - r)| + |D - δ| := abs_add_le _ _
    _ ≤ (B - 1) * (A * δ + r) + (A - 1) * δ :=
        add_le_add (e2.trans (mul_le_mul_of_nonneg_left e3 (by linarith))) e1
    _ ≤ (A * B - 1) * (δ + r) := by
        have : 0 ≤ B * (A - 1) * r := by
          have := mul_nonneg (show 0 ≤ B by linarith) (show 0 ≤ A - 1 by linarith)
          positivity
        nlinarith

/-! ## C79: choosing the tolerance of `contains_point` -/

/-- `math.isclose(d, 0, rel_tol=t, abs_tol=s)` under rounding. -/
theorem isclose_zero_abs_rd (h : StdRounding u fl) (hu : u ≤ 1 / 4) {t s d : ℝ} (ht : 0 ≤ t) (ht1 : t ≤ 1 / 4)
    (hs : 0 ≤ s) :
    ∃ b, @isclose ℝ (rounded fl) ⟨t, s⟩ d (@zero ℝ (rounded fl)) = .ok b ∧
      ((1 + u) * |d| ≤ s → b = true) ∧ (b = true → (1 - u) * |d| ≤ s) := by
  classical
  have hu0 := h.nonneg
  rw [zero_rd, isclose_rd _ _ _ _ _ ht hs]
  have e1 := h.err (0 - d)
  rw [zero_sub, abs_neg] at e1
  have f1 : |fl (-d)| ≤ (1 + u) * |d| := by
    have := abs_sub_abs_le_abs_sub (fl (-d)) (-d)
    rw [abs_neg] at this; linarith
  have f2 : (1 - u) * |d| ≤ |fl (-d)| := by
    have := abs_sub_abs_le_abs_sub (-d) (fl (-d))
    rw [abs_neg, abs_sub_comm] at this; linarith
  refine ⟨_, rfl, fun hb => ?_, fun hb => ?_⟩
  · simp only [decide_eq_true_eq, zero_sub]
    right; right; right
    exact f1.trans hb
  · simp only [decide_eq_true_eq, zero_sub, mul_zero, h.zero, abs_zero] at hb
    rcases hb with hb | hb | hb | hb
    · rw [hb]; simpa using hs
    · have : (1 - u) * |d| ≤ 0 := f2.trans hb
      linarith
    · have e2 := h.err (t * d)
      have f3 : |fl (t * d)| ≤ (1 + u) * (t * |d|) := by
        have := abs_sub_abs_le_abs_sub (fl (t * d)) (t * d)
        rw [abs_mul, abs_of_nonneg ht] at this e2; linarith
      have f4 : t * |d| ≤ 1 / 4 * |d| := mul_le_mul_of_nonneg_right ht1 (abs_nonneg d)
      have f5 : u * |d| ≤ 1 / 4 * |d| := mul_le_mul_of_nonneg_right hu (abs_nonneg d)
      have f6 : u * (t * |d|) ≤ 1 / 4 * (t * |d|) := mul_le_mul_of_nonneg_right hu (by positivity)
      have : |d| ≤ 0 := by nlinarith
      have : (1 - u) * |d| ≤ 0 := by nlinarith [abs_nonneg d]
      linarith
    · exact f2.trans hb

/-- C79: `plane.contains_point(x, rel_tol=t, abs_tol=s)` under rounding.  With
`b = ((1-u)^(-(3n+9)/2) - 1) dist x p`: it is `True` for every point whose exact distance `d` from the plane
satisfies `(1+u)(d + b) ≤ s`, in particular, as soon as `(1+u) b ≤ s`, for every point of the plane; and it is
`True` only if `(1-u)(d - b) ≤ s`. -/
theorem C79_plane_contains [NeZero n] (h : StdRounding u fl) (hu : u ≤ 1 / 4) (p m x : E n) (hm : m ≠ 0)
    {t s : ℝ} (ht : 0 ≤ t) (ht1 : t ≤ 1 / 4) (hs : 0 ≤ s) :
    ∃ b, @Plane.containsPoint ℝ (rounded fl) ⟨t, s⟩ ⟨arr p, arr m⟩ (arr x) = .ok b ∧
      ((1 + u) * (|signedDist p m x| + (((1 - u) ^ ((3 * n + 9) / 2 : ℝ))⁻¹ - 1) * dist x p) ≤ s → b = true) ∧
      (b = true → (1 - u) * (|signedDist p m x| - (((1 - u) ^ ((3 * n + 9) / 2 : ℝ))⁻¹ - 1) * dist x p) ≤ s) := by
  obtain ⟨d, -, hd, he, -⟩ := C78_plane_distance h p m x hm
  obtain ⟨b, hb, h1, h2⟩ := isclose_zero_abs_rd h hu (d := |d|) ht ht1 hs
  have hu0 := h.nonneg
  have g1 : |d| ≤ |signedDist p m x| + (((1 - u) ^ ((3 * n + 9) / 2 : ℝ))⁻¹ - 1) * dist x p := by
    have := abs_sub_abs_le_abs_sub d (signedDist p m x); linarith
  have g2 : |signedDist p m x| - (((1 - u) ^ ((3 * n + 9) / 2 : ℝ))⁻¹ - 1) * dist x p ≤ |d| := by
    have := abs_sub_abs_le_abs_sub (signedDist p m x) d
    rw [abs_sub_comm] at this; linarith
  rw [abs_abs] at h1 h2
  refine ⟨b, by simp only [Plane.containsPoint, containsPointFn, hd, ok_bind, hb], fun hc => h1 ?_, fun hc => ?_⟩
  · exact (mul_le_mul_of_nonneg_left g1 (by linarith)).trans hc
  · exact (mul_le_mul_of_nonneg_left g2 (by linarith)).trans (h2 hc)

/-- C79: the same for circles and spheres, with `b = ((1-u)^(-(n+7)/2) - 1) (dist c x + r)` and the exact distance
`|dist c x - r|`. -/
theorem C79_sphere_contains [NeZero n] (h : StdRounding u fl) (hu : u ≤ 1 / 4) (c x : E n) (r : ℝ) (hr : 0 < r)
    {t s : ℝ} (ht : 0 ≤ t) (ht1 : t ≤ 1 / 4) (hs : 0 ≤ s) :
    ∃ b, @Sphere.containsPoint ℝ (rounded fl) ⟨t, s⟩ ⟨arr c, r⟩ (arr x) = .ok b ∧
      @Circle.containsPoint ℝ (rounded fl) ⟨t, s⟩ ⟨arr c, r⟩ (arr x) = .ok b ∧
      ((1 + u) * (|dist c x - r| + (((1 - u) ^ ((n + 7) / 2 : ℝ))⁻¹ - 1) * (dist c x + r)) ≤ s → b = true) ∧
      (b = true → (1 - u) * (|dist c x - r| - (((1 - u) ^ ((n + 7) / 2 : ℝ))⁻¹ - 1) * (dist c x + r)) ≤ s) := by
  obtain ⟨d, hd', hd, he⟩ := C78_sphere_distance h c x r hr
  obtain ⟨b, hb, h1, h2⟩ := isclose_zero_abs_rd h hu (d := d) ht ht1 hs
  have hu0 := h.nonneg
  obtain ⟨δ, hδ⟩ : ∃ δ, δ = |dist c x - r| := ⟨_, rfl⟩
  rw [← hδ] at he ⊢
  have hδ0 : 0 ≤ δ := by rw [hδ]; exact abs_nonneg _
  have g1 : |d| ≤ δ + (((1 - u) ^ ((n + 7) / 2 : ℝ))⁻¹ - 1) * (dist c x + r) := by
    have := abs_sub_abs_le_abs_sub d δ
    rw [abs_of_nonneg hδ0] at this; linarith
  have g2 : δ - (((1 - u) ^ ((n + 7) / 2 : ℝ))⁻¹ - 1) * (dist c x + r) ≤ |d| := by
    have := abs_sub_abs_le_abs_sub δ d
    rw [abs_sub_comm, abs_of_nonneg hδ0] at this; linarith
  refine ⟨b, by simp only [Sphere.containsPoint, containsPointFn, hd, ok_bind, hb],
    by simp only [Circle.containsPoint, containsPointFn, hd', ok_bind, hb], fun hc => h1 ?_, fun hc => ?_⟩
  · exact (mul_le_mul_of_nonneg_left g1 (by linarith)).trans hc
  · exact (mul_le_mul_of_nonneg_left g2 (by linarith)).trans (h2 hc)

end SkSpatial
