import Verif.Props.Rounding22
/-! # C113: the methods on whole point lists, `sum_squares` and projected vectors and lines under rounding -/

namespace SkSpatial
open StdRounding

variable {u : ℝ} {fl : Arith} {n : ℕ}

/-- `b + D e` computed from an approximate unit vector `e` and an approximate coordinate `D`. -/
theorem along_unit (h : StdRounding u fl) {k j W D D₀ : ℝ} (hk : 0 ≤ k) (hj : 0 ≤ j) {b e ê s q : E n} (hW : 0 ≤ W)
    (hê : ‖ê‖ = 1) (he : CRP (eps u) k e ê) (hD₀ : |D₀| ≤ W) (hD : |D - D₀| ≤ (Real.exp (j * eps u) - 1) * W)
    (hs : ∀ i, s i = fl (D * e i)) (hq : CRP (eps u) 1 q (b + s)) :
    ‖q - (b + D₀ • ê)‖ ≤ (Real.exp (eps u) - 1) * ‖b‖ + (Real.exp ((j + k + 2) * eps u) - 1) * W := by
  have hε := h.eps_nonneg
  obtain ⟨A, hA⟩ : ∃ A, A = Real.exp (j * eps u) := ⟨_, rfl⟩
  obtain ⟨B, hB⟩ : ∃ B, B = Real.exp ((k + 1) * eps u) := ⟨_, rfl⟩
  obtain ⟨C, hC⟩ : ∃ C, C = Real.exp (eps u) := ⟨_, rfl⟩
  have hA1 : 1 ≤ A := by rw [hA]; exact one_le_exp_eps h hj
  have hB1 : 1 ≤ B := by rw [hB]; exact one_le_exp_eps h (by linarith)
  have hC1 : 1 ≤ C := by rw [hC]; exact Real.one_le_exp hε
  have hABC : Real.exp ((j + k + 2) * eps u) = A * B * C := by
    rw [hA, hB, hC, ← Real.exp_add, ← Real.exp_add]; congr 1; ring
  rw [← hA] at hD
  rw [hABC, ← hC]
  have hcs : CRP (eps u) (k + 1) s (D • ê) := by
    intro i
    rw [hs]
    have := h.step ((RP.refl (eps u) D).mul (he i))
    rw [zero_add] at this
    simpa using this
  have e1 := CRP.norm_sub_le hcs (by positivity)
  have hDb : |D| ≤ A * W := by
    calc |D| = |(D - D₀) + D₀| := by ring_nf
      _ ≤ _ := abs_add_le _ _
      _ ≤ _ := by linarith
  rw [norm_smul, hê, mul_one, Real.norm_eq_abs, ← hB] at e1
  have e2 : ‖D • ê - D₀ • ê‖ ≤ (A - 1) * W := by
    rw [← sub_smul, norm_smul, hê, mul_one, Real.norm_eq_abs]; exact hD
  have e3 : ‖s - D₀ • ê‖ ≤ (A * B - 1) * W := by
    calc ‖s - D₀ • ê‖ = ‖(s - D • ê) + (D • ê - D₀ • ê)‖ := by congr 1; abel
      _ ≤ _ := norm_add_le _ _
      _ ≤ (B - 1) * (A * W) + (A - 1) * W :=
          add_le_add (e1.trans (mul_le_mul_of_nonneg_left hDb (by linarith))) e2
      _ = _ := by ring
  have e4 : ‖s‖ ≤ A * B * W := by
    have h1 : ‖D₀ • ê‖ ≤ W := by rw [norm_smul, hê, mul_one, Real.norm_eq_abs]; exact hD₀
    calc ‖s‖ = ‖(s - D₀ • ê) + D₀ • ê‖ := by congr 1; abel
      _ ≤ _ := norm_add_le _ _
      _ ≤ _ := by linarith
  have e5 := CRP.norm_sub_le hq (by linarith)
  rw [one_mul, ← hC] at e5
  have e6 : ‖b + s‖ ≤ ‖b‖ + A * B * W := (norm_add_le _ _).trans (by linarith)
  calc ‖q - (b + D₀ • ê)‖ = ‖(q - (b + s)) + (s - D₀ • ê)‖ := by congr 1; abel
    _ ≤ _ := norm_add_le _ _
    _ ≤ (C - 1) * (‖b‖ + A * B * W) + (A * B - 1) * W :=
        add_le_add (e5.trans (mul_le_mul_of_nonneg_left e6 (by linarith))) e3
    _ = _ := by ring

theorem foot_unit (p v x : E n) : foot p v x = p + (inner ℝ (x - p) (‖v‖⁻¹ • v) : ℝ) • (‖v‖⁻¹ • v) := by
  rw [foot, real_inner_smul_right, smul_smul]
  congr 2
  ring

theorem abs_inner_unit_le (w : E n) {v : E n} (hv : v ≠ 0) : |(inner ℝ w (‖v‖⁻¹ • v) : ℝ)| ≤ ‖w‖ := by
  have := abs_real_inner_le_norm w (‖v‖⁻¹ • v)
  rwa [norm_unit hv, mul_one] at this

theorem exp_nat (h : StdRounding u fl) {k : ℝ} {m : ℕ} (hk : k = m) : Real.exp (k * eps u) = ((1 - u) ^ m)⁻¹ := by
  rw [h.exp_eps, hk, Real.rpow_natCast]

theorem exp_one_eps (h : StdRounding u fl) : Real.exp (eps u) = (1 - u)⁻¹ := by
  have := h.exp_eps 1
  rwa [one_mul, Real.rpow_one] at this

theorem crp_sub {x y z : E n} (h : StdRounding u fl) (hz : ∀ i, z i = fl (x i - y i)) : CRP (eps u) 1 z (x - y) :=
  fun i => by rw [hz]; exact h.rp _

/-! ### `project_points` and `distance_points` -/

theorem lineProjectPoints_rd [NeZero n] (h : StdRounding u fl) (p v : E n) (hv : v ≠ 0) {P : List (E n)} (hP : P ≠ []) :
    ∃ g : E n → E n, @Line.projectPoints ℝ (rounded fl) ⟨arr p, arr v⟩ (rows P) = .ok (rows (P.map g)) ∧
      ∀ x, dist (g x) (foot p v x) ≤ ((1 - u)⁻¹ - 1) * ‖p‖ + (((1 - u) ^ (2 * n + 9))⁻¹ - 1) * dist x p := by
  obtain ⟨e, he, ce⟩ := unit_rd h v hv
  choose z hz hzi using fun x : E n => vsub_rd (fl := fl) x p
  choose s hs hsi using fun x : E n => smul_rd (fl := fl) (@dotv ℝ (rounded fl) (arr (z x)) (arr e)) e
  choose q hq hqi using fun x : E n => vadd_rd (fl := fl) (s x) p
  refine ⟨q, ?_, fun x => ?_⟩
  · have h1 : (rows P).mapM (fun y => @vsub ℝ (rounded fl) y (arr p)) = .ok (P.map fun x => arr (z x)) :=
      mapM_rows P _ (fun x => arr (z x)) (fun x _ => hz x)
    have h2 : (P.map fun x => arr (z x)).mapM (fun w => @dot ℝ (rounded fl) w (arr e)) =
        .ok (P.map fun x => @dotv ℝ (rounded fl) (arr (z x)) (arr e)) :=
      mapM_map_ok _ _ _ _ (by intro x _; rw [dot_rd])
    have h3 : (P.map fun x => @dotv ℝ (rounded fl) (arr (z x)) (arr e)).mapM
        (fun c => @vadd ℝ (rounded fl) (@smul ℝ (rounded fl) c (arr e)) (arr p)) = .ok (P.map fun x => arr (q x)) := by
      apply mapM_map_ok
      intro x _
      rw [hs, hq]
    have h4 : (P.map fun x => arr (q x)) = rows (P.map q) := by simp [rows]
    simp only [Line.projectPoints, checkRows_rows hP, ok_bind, h1, he, h2, h3, h4]
    exact newPoints_rd (by simpa using hP)
  · have hn := norm_unit hv
    have hD := h.dotv_abs' zero_le_one (by positivity) (crp_sub h (hzi x)) ce
    rw [hn, mul_one, show (1 + (n + 5) / 2 + 1 + n : ℝ) = (3 * n + 9) / 2 by ring] at hD
    have hcq : CRP (eps u) 1 (q x) (p + s x) := fun i => by
      rw [hqi, PiLp.add_apply, add_comm]; exact h.rp _
    have := along_unit h (by positivity) (by positivity) (norm_nonneg (x - p)) hn ce (abs_inner_unit_le (x - p) hv) hD (hsi x) hcq
    rw [← foot_unit, exp_one_eps h, exp_nat h (m := 2 * n + 9) (by push_cast; ring), ← dist_eq_norm, ← dist_eq_norm] at this
    exact this

/-- C113: every point returned by `line.project_points(points)` under rounding is within
`u/(1-u) ‖p‖ + ((1-u)^-(2n+9) - 1) dist x p` of the foot of the perpendicular from the corresponding input point `x`. -/
theorem C113_line_project_points [NeZero n] (h : StdRounding u fl) (p v : E n) (hv : v ≠ 0) {P : List (E n)} (hP : P ≠ []) :
    ∃ Q : List (E n), @Line.projectPoints ℝ (rounded fl) ⟨arr p, arr v⟩ (rows P) = .ok (rows Q) ∧
      List.Forall₂ (fun x q => dist q (foot p v x) ≤
        ((1 - u)⁻¹ - 1) * ‖p‖ + (((1 - u) ^ (2 * n + 9))⁻¹ - 1) * dist x p) P Q := by
  obtain ⟨g, h1, h2⟩ := lineProjectPoints_rd h p v hv hP
  refine ⟨P.map g, h1, ?_⟩
  rw [List.forall₂_map_right_iff, List.forall₂_same]
  exact fun x _ => h2 x

theorem planeProjectPoints_rd [NeZero n] (h : StdRounding u fl) (p m : E n) (hm : m ≠ 0) {P : List (E n)} (hP : P ≠ []) :
    ∃ g : E n → E n, @Plane.projectPoints ℝ (rounded fl) ⟨arr p, arr m⟩ (rows P) = .ok (rows (P.map g)) ∧
      ∀ x, dist (g x) (foot x m p) ≤ ((1 - u)⁻¹ - 1) * ‖x‖ + (((1 - u) ^ (2 * n + 9))⁻¹ - 1) * dist x p := by
  obtain ⟨e, he, ce⟩ := unit_rd h m hm
  choose z hz hzi using fun x : E n => vsub_rd (fl := fl) p x
  choose s hs hsi using fun x : E n => smul_rd (fl := fl) (@dotv ℝ (rounded fl) (arr (z x)) (arr e)) e
  choose q hq hqi using fun x : E n => vadd_rd (fl := fl) (s x) x
  refine ⟨q, ?_, fun x => ?_⟩
  · have h1 : (rows P).mapM (fun y => @vsub ℝ (rounded fl) (arr p) y) = .ok (P.map fun x => arr (z x)) :=
      mapM_rows P _ (fun x => arr (z x)) (fun x _ => hz x)
    have h2 : (P.map fun x => arr (z x)).mapM (fun w => @dot ℝ (rounded fl) w (arr e)) =
        .ok (P.map fun x => @dotv ℝ (rounded fl) (arr (z x)) (arr e)) :=
      mapM_map_ok _ _ _ _ (by intro x _; rw [dot_rd])
    have hzip : List.zip (P.map fun x => @dotv ℝ (rounded fl) (arr (z x)) (arr e)) (rows P) =
        P.map fun x => (@dotv ℝ (rounded fl) (arr (z x)) (arr e), arr x) := by
      rw [rows, List.zip_map']
    have h3 : (List.zip (P.map fun x => @dotv ℝ (rounded fl) (arr (z x)) (arr e)) (rows P)).mapM
        (fun dp => @vadd ℝ (rounded fl) (@smul ℝ (rounded fl) dp.1 (arr e)) dp.2) = .ok (P.map fun x => arr (q x)) := by
      rw [hzip]
      apply mapM_map_ok
      intro x _
      rw [hs, hq]
    have h4 : (P.map fun x => arr (q x)) = rows (P.map q) := by simp [rows]
    simp only [Plane.projectPoints, checkRows_rows hP, ok_bind, h1, he, h2, h3, h4]
    exact newPoints_rd (by simpa using hP)
  · have hn := norm_unit hm
    have hD := h.dotv_abs' zero_le_one (by positivity) (crp_sub h (hzi x)) ce
    rw [hn, mul_one, show (1 + (n + 5) / 2 + 1 + n : ℝ) = (3 * n + 9) / 2 by ring] at hD
    have hcq : CRP (eps u) 1 (q x) (x + s x) := fun i => by
      rw [hqi, PiLp.add_apply, add_comm]; exact h.rp _
    have := along_unit h (by positivity) (by positivity) (norm_nonneg (p - x)) hn ce (abs_inner_unit_le (p - x) hm) hD (hsi x) hcq
    rw [← foot_unit, exp_one_eps h, exp_nat h (m := 2 * n + 9) (by push_cast; ring), ← dist_eq_norm, ← dist_eq_norm,
      dist_comm p x] at this
    exact this

theorem foot_plane (p m x : E n) : foot x m p = x - (inner ℝ (x - p) m / ‖m‖ ^ 2) • m := by
  rw [foot, ← neg_sub x p, inner_neg_left, neg_div, neg_smul, ← sub_eq_add_neg]

/-- C113: every point returned by `plane.project_points(points)` under rounding is within
`u/(1-u) ‖x‖ + ((1-u)^-(2n+9) - 1) dist x p` of the exact orthogonal projection of the corresponding input point `x`. -/
theorem C113_plane_project_points [NeZero n] (h : StdRounding u fl) (p m : E n) (hm : m ≠ 0) {P : List (E n)} (hP : P ≠ []) :
    ∃ Q : List (E n), @Plane.projectPoints ℝ (rounded fl) ⟨arr p, arr m⟩ (rows P) = .ok (rows Q) ∧
      List.Forall₂ (fun x q => dist q (x - (inner ℝ (x - p) m / ‖m‖ ^ 2) • m) ≤
        ((1 - u)⁻¹ - 1) * ‖x‖ + (((1 - u) ^ (2 * n + 9))⁻¹ - 1) * dist x p) P Q := by
  obtain ⟨g, h1, h2⟩ := planeProjectPoints_rd h p m hm hP
  refine ⟨P.map g, h1, ?_⟩
  rw [List.forall₂_map_right_iff, List.forall₂_same]
  intro x _
  rw [← foot_plane]
  exact h2 x

/-- C113: every number returned by `line.distance_points(points)` under rounding is, up to a relative error
`(1-u)^-((n+5)/2) - 1`, within the bound of `C113_line_project_points` of the exact distance. -/
theorem C113_line_distance_points [NeZero n] (h : StdRounding u fl) (p v : E n) (hv : v ≠ 0) {P : List (E n)} (hP : P ≠ []) :
    ∃ D : List ℝ, @Line.distancePoints ℝ (rounded fl) ⟨arr p, arr v⟩ (rows P) = .ok D ∧
      List.Forall₂ (fun x d => ∃ e, ApproxRel u ((n + 5) / 2) d e ∧ |e - dist x (foot p v x)| ≤
        ((1 - u)⁻¹ - 1) * ‖p‖ + (((1 - u) ^ (2 * n + 9))⁻¹ - 1) * dist x p) P D := by
  obtain ⟨g, h1, h2⟩ := lineProjectPoints_rd h p v hv hP
  choose z hz hzi using fun x : E n => vsub_rd (fl := fl) x (g x)
  have hzip : List.zip (rows P) (rows (P.map g)) = P.map fun x => (arr x, arr (g x)) := by
    simp only [rows, List.map_map]
    rw [List.zip_map']; rfl
  have h3 : (List.zip (rows P) (rows (P.map g))).mapM (fun pq => @vsub ℝ (rounded fl) pq.1 pq.2) =
      .ok (P.map fun x => arr (z x)) := by
    rw [hzip]; exact mapM_map_ok _ _ _ _ (fun x _ => hz x)
  refine ⟨P.map fun x => @normv ℝ (rounded fl) (arr (z x)), ?_, ?_⟩
  · simp only [Line.distancePoints, h1, ok_bind, h3, pure_ok, List.map_map, Function.comp_def]
  · rw [List.forall₂_map_right_iff, List.forall₂_same]
    intro x _
    have hr := h.normv_rp zero_le_one (crp_sub h (hzi x))
    rw [show (1 + (n + 3) / 2 : ℝ) = (n + 5) / 2 by ring, ← dist_eq_norm] at hr
    refine ⟨_, h.approxRel hr dist_nonneg, le_trans ?_ (h2 x)⟩
    rw [dist_comm x, dist_comm x]
    exact abs_dist_sub_le _ _ _

/-- C113: every number returned by `plane.distance_points_signed(points)` under rounding is within
`((1-u)^-((3n+9)/2) - 1) dist x p` of the exact signed distance of the corresponding point, and
`plane.distance_points(points)` returns the absolute values. -/
theorem C113_plane_distance_points [NeZero n] (h : StdRounding u fl) (p m : E n) (hm : m ≠ 0) {P : List (E n)} (hP : P ≠ []) :
    ∃ D : List ℝ, @Plane.distancePointsSigned ℝ (rounded fl) ⟨arr p, arr m⟩ (rows P) = .ok D ∧
      @Plane.distancePoints ℝ (rounded fl) ⟨arr p, arr m⟩ (rows P) = .ok (D.map abs) ∧
      List.Forall₂ (fun x s => |s - signedDist p m x| ≤
        (((1 - u) ^ ((3 * n + 9) / 2 : ℝ))⁻¹ - 1) * dist x p) P D := by
  obtain ⟨e, he, ce⟩ := unit_rd h m hm
  choose z hz hzi using fun x : E n => vsub_rd (fl := fl) x p
  have h1 : (rows P).mapM (fun y => @vsub ℝ (rounded fl) y (arr p)) = .ok (P.map fun x => arr (z x)) :=
    mapM_rows P _ (fun x => arr (z x)) (fun x _ => hz x)
  have h2 : (P.map fun x => arr (z x)).mapM (fun w => @dot ℝ (rounded fl) w (arr e)) =
      .ok (P.map fun x => @dotv ℝ (rounded fl) (arr (z x)) (arr e)) :=
    mapM_map_ok _ _ _ _ (by intro x _; rw [dot_rd])
  have h3 : @Plane.distancePointsSigned ℝ (rounded fl) ⟨arr p, arr m⟩ (rows P) =
      .ok (P.map fun x => @dotv ℝ (rounded fl) (arr (z x)) (arr e)) := by
    simp only [Plane.distancePointsSigned, checkRows_rows hP, ok_bind, h1, he, h2]
  refine ⟨_, h3, ?_, ?_⟩
  · simp only [Plane.distancePoints, h3, ok_bind, pure_ok]
    rfl
  · rw [List.forall₂_map_right_iff, List.forall₂_same]
    intro x _
    have hD := h.dotv_abs' zero_le_one (by positivity) (crp_sub h (hzi x)) ce
    rw [norm_unit hm, mul_one, show (1 + (n + 5) / 2 + 1 + n : ℝ) = (3 * n + 9) / 2 by ring, h.exp_eps, ← dist_eq_norm,
      real_inner_comm, signedDist_eq] at hD
    exact hD

/-! ### `sum_squares` -/

/-- A rounded sum of squares of approximate distances. -/
theorem sumSquares_rd (h : StdRounding u fl) {f : List ℝ → Res ℝ} {P : List (E n)} (hP : P ≠ []) {d t M : E n → ℝ} {k : ℝ}
    (hk : 0 ≤ k) (hf : ∀ x, f (arr x) = .ok (d x)) (ht : ∀ x, |t x| ≤ M x)
    (hd : ∀ x, |d x - t x| ≤ (Real.exp (k * eps u) - 1) * M x) :
    ∃ s, @sumSquaresFn ℝ (rounded fl) f (rows P) = .ok s ∧
      |s - (P.map fun x => t x ^ 2).sum| ≤
        (Real.exp ((2 * k + 1 + P.length) * eps u) - 1) * (P.map fun x => M x ^ 2).sum := by
  have hε := h.eps_nonneg
  have h1 : (rows P).mapM f = .ok (P.map d) := mapM_rows P _ _ (fun x _ => hf x)
  refine ⟨@sumL ℝ (rounded fl) (P.map fun x => fl (d x * d x)), ?_, ?_⟩
  · simp only [sumSquaresFn, checkRows_rows hP, ok_bind, h1, pure_ok, List.map_map]
    rfl
  have key := sumL_error h (fun i : Fin P.length => t (P.get i) ^ 2) (fun i => fl (d (P.get i) * d (P.get i)))
    (fun i => M (P.get i) ^ 2) (k := 2 * k + 1) (by positivity)
    (fun i => by
      rw [abs_pow]; exact pow_le_pow_left₀ (abs_nonneg _) (ht _) 2)
    (fun i => by
      generalize P.get i = x
      obtain ⟨A, hA⟩ : ∃ A, A = Real.exp (k * eps u) := ⟨_, rfl⟩
      have hA1 : 1 ≤ A := by rw [hA]; exact one_le_exp_eps h hk
      obtain ⟨C, hC⟩ : ∃ C, C = Real.exp (eps u) := ⟨_, rfl⟩
      have hC1 : 1 ≤ C := by rw [hC]; exact Real.one_le_exp hε
      have hAC : Real.exp ((2 * k + 1) * eps u) = A * A * C := by
        rw [hA, hC, ← Real.exp_add, ← Real.exp_add]; congr 1; ring
      have e0 := ht x
      have e1 := hd x
      rw [← hA] at e1
      have hM : 0 ≤ M x := (abs_nonneg _).trans e0
      have e2 : |d x| ≤ A * M x := by
        calc |d x| = |(d x - t x) + t x| := by ring_nf
          _ ≤ _ := abs_add_le _ _
          _ ≤ _ := by linarith
      have e3 := (h.rp (d x * d x)).abs_sub_le
      rw [one_mul, ← hC, abs_mul] at e3
      rw [hAC]
      have e4 : |d x * d x - t x ^ 2| ≤ (A * A - 1) * M x ^ 2 := by
        have : d x * d x - t x ^ 2 = (d x - t x) * (d x + t x) := by ring
        rw [this, abs_mul]
        have e5 : |d x + t x| ≤ (A + 1) * M x := (abs_add_le _ _).trans (by linarith)
        calc |d x - t x| * |d x + t x| ≤ ((A - 1) * M x) * ((A + 1) * M x) := by
              apply mul_le_mul e1 e5 (abs_nonneg _)
              exact mul_nonneg (by linarith) hM
          _ = _ := by ring
      have e6 : |d x| * |d x| ≤ A * A * M x ^ 2 := by
        calc |d x| * |d x| ≤ (A * M x) * (A * M x) := mul_le_mul e2 e2 (abs_nonneg _) (by positivity)
          _ = _ := by ring
      calc |fl (d x * d x) - t x ^ 2| = |(fl (d x * d x) - d x * d x) + (d x * d x - t x ^ 2)| := by ring_nf
        _ ≤ _ := abs_add_le _ _
        _ ≤ (C - 1) * (A * A * M x ^ 2) + (A * A - 1) * M x ^ 2 :=
          add_le_add (e3.trans (mul_le_mul_of_nonneg_left e6 (by linarith))) e4
        _ = _ := by ring)
  have hl : ∀ g : E n → ℝ, List.ofFn (fun i : Fin P.length => g (P.get i)) = P.map g := by
    intro g
    conv_rhs => rw [← List.ofFn_get P]
    rw [List.map_ofFn]; rfl
  have hs : ∀ g : E n → ℝ, ∑ i : Fin P.length, g (P.get i) = (P.map g).sum := by
    intro g; rw [← List.sum_ofFn, hl]
  rw [hl (fun x => fl (d x * d x)), hs (fun x => t x ^ 2), hs (fun x => M x ^ 2)] at key
  exact key

/-- C113: `plane.sum_squares(points)` under rounding is within `((1-u)^-(3n+10+m) - 1) Σ dist(x, p)²` of the exact sum
of squared distances, for `m` points and `p` the plane's point. -/
theorem C113_plane_sum_squares [NeZero n] (h : StdRounding u fl) (p m : E n) (hm : m ≠ 0) {P : List (E n)} (hP : P ≠ []) :
    ∃ s, @Plane.sumSquares ℝ (rounded fl) ⟨arr p, arr m⟩ (rows P) = .ok s ∧
      |s - (P.map fun x => signedDist p m x ^ 2).sum| ≤
        (((1 - u) ^ (3 * n + 10 + P.length))⁻¹ - 1) * (P.map fun x => dist x p ^ 2).sum := by
  choose d hd hde using fun x : E n => planeSigned_rd h p m x hm
  have hf : ∀ x, @Plane.distancePoint ℝ (rounded fl) ⟨arr p, arr m⟩ (arr x) = .ok |d x| := fun x => by
    simp only [Plane.distancePoint, hd, ok_bind, pure_ok, abs_rd]
  obtain ⟨s, h1, h2⟩ := sumSquares_rd h hP (t := fun x => |signedDist p m x|) (M := fun x => dist x p)
    (k := (3 * n + 9) / 2) (by positivity) hf
    (fun x => by
      rw [abs_abs, ← signedDist_eq, real_inner_comm, dist_eq_norm]; exact abs_inner_unit_le _ hm)
    (fun x => by
      refine (abs_abs_sub_abs_le_abs_sub _ _).trans ?_
      rw [← signedDist_eq]; exact hde x)
  refine ⟨s, h1, ?_⟩
  rw [exp_nat h (m := 3 * n + 10 + P.length) (by push_cast; ring)] at h2
  simpa only [sq_abs] using h2

/-- C113: `line.sum_squares(points)` under rounding is within `((1-u)^-(5n+18+m) - 1) Σ (‖p‖ + dist(x, p))²` of the exact
sum of squared distances, for `m` points and `p` the line's point. -/
theorem C113_line_sum_squares [NeZero n] (h : StdRounding u fl) (p v : E n) (hv : v ≠ 0) {P : List (E n)} (hP : P ≠ []) :
    ∃ s, @Line.sumSquares ℝ (rounded fl) ⟨arr p, arr v⟩ (rows P) = .ok s ∧
      |s - (P.map fun x => dist x (foot p v x) ^ 2).sum| ≤
        (((1 - u) ^ (5 * n + 18 + P.length))⁻¹ - 1) * (P.map fun x => (‖p‖ + dist x p) ^ 2).sum := by
  have hε := h.eps_nonneg
  choose q hq hqe using fun x : E n => projectPoint_rd h p v x hv
  choose d hd hr using fun x : E n => distancePoint_rp h (q x) x
  have hf : ∀ x, @Line.distancePoint ℝ (rounded fl) ⟨arr p, arr v⟩ (arr x) = .ok (d x) := fun x => by
    simp only [Line.distancePoint, wrapped_rd, hq, ok_bind, hd]
  have htW : ∀ x, dist x (foot p v x) ≤ dist x p := fun x => by
    have := foot_dist_le p v x hv 0
    simpa using this
  obtain ⟨s, h1, h2⟩ := sumSquares_rd h hP (t := fun x => dist x (foot p v x)) (M := fun x => ‖p‖ + dist x p)
    (k := (5 * n + 17) / 2) (by positivity) hf
    (fun x => by
      rw [abs_of_nonneg dist_nonneg]
      have := htW x
      have := norm_nonneg p
      linarith)
    (fun x => by
      obtain ⟨F, hF⟩ : ∃ F, F = Real.exp ((n + 5) / 2 * eps u) := ⟨_, rfl⟩
      obtain ⟨K, hK⟩ : ∃ K, K = Real.exp ((2 * n + 6) * eps u) := ⟨_, rfl⟩
      have hF1 : 1 ≤ F := by rw [hF]; exact one_le_exp_eps h (by positivity)
      have hCK : Real.exp (eps u) ≤ K := by
        rw [hK]; apply Real.exp_le_exp.mpr
        have : (0:ℝ) ≤ n := by positivity
        nlinarith
      have hFK : Real.exp ((5 * n + 17) / 2 * eps u) = F * K := by
        rw [hF, hK, ← Real.exp_add]; congr 1; ring
      have e1 := (hr x).abs_sub_le
      rw [← hF, abs_of_nonneg dist_nonneg] at e1
      have e2 := hqe x
      rw [← hK, ← dist_eq_norm] at e2
      have hp := norm_nonneg p
      have e3 : dist (q x) (foot p v x) ≤ (K - 1) * (‖p‖ + dist x p) := by
        have := mul_le_mul_of_nonneg_right hCK hp
        linarith
      have e4 : |dist (q x) x - dist x (foot p v x)| ≤ (K - 1) * (‖p‖ + dist x p) := by
        rw [dist_comm x (foot p v x)]
        exact (abs_dist_sub_le _ _ _).trans e3
      have e5 : dist (q x) x ≤ K * (‖p‖ + dist x p) := by
        have := htW x
        have := le_abs_self (dist (q x) x - dist x (foot p v x))
        linarith
      rw [hFK]
      calc |d x - dist x (foot p v x)| = |(d x - dist (q x) x) + (dist (q x) x - dist x (foot p v x))| := by ring_nf
        _ ≤ _ := abs_add_le _ _
        _ ≤ (F - 1) * (K * (‖p‖ + dist x p)) + (K - 1) * (‖p‖ + dist x p) :=
          add_le_add (e1.trans (mul_le_mul_of_nonneg_left e5 (by linarith))) e4
        _ = _ := by ring)
  refine ⟨s, h1, ?_⟩
  rw [exp_nat h (m := 5 * n + 18 + P.length) (by push_cast; ring)] at h2
  exact h2

/-! ### `plane.project_vector`, `plane.project_line`, `points.mean_center` -/

/-- The component of `w` orthogonal to `m`, as a displacement in the plane through `p` with normal `m`. -/
theorem foot_vec (p m w : E n) : foot (p + w) m p - p = w - (inner ℝ w m / ‖m‖ ^ 2) • m := by
  rw [foot_plane, add_sub_cancel_left]; abel

theorem perp_part_le (m w : E n) : ‖w - (inner ℝ w m / ‖m‖ ^ 2) • m‖ ≤ ‖w‖ := by
  by_cases hm : m = 0
  · simp [hm]
  have := foot_dist_le 0 m w hm 0
  simpa [foot, dist_eq_norm] using this

/-- C113: `plane.project_vector(w)` under rounding is within `((1-u)^-(2n+9) - 1) (‖p‖ + ‖w‖)` of the component of `w`
orthogonal to the plane's normal; `p` is the plane's point, which takes part in the computation. -/
theorem C113_plane_project_vector [NeZero n] (h : StdRounding u fl) (p m w : E n) (hm : m ≠ 0) :
    ∃ q : E n, @Plane.projectVector ℝ (rounded fl) ⟨arr p, arr m⟩ (arr w) = .ok (arr q) ∧
      ‖q - (w - (inner ℝ w m / ‖m‖ ^ 2) • m)‖ ≤ (((1 - u) ^ (2 * n + 9))⁻¹ - 1) * (‖p‖ + ‖w‖) := by
  have hε := h.eps_nonneg
  obtain ⟨x, hx, hxi⟩ := vadd_rd (fl := fl) p w
  obtain ⟨r, hr, hre⟩ := projectPoint_rd h x m p hm
  obtain ⟨q, hq, hqi⟩ := fromPoints_rd fl p r
  refine ⟨q, ?_, ?_⟩
  · simp only [Plane.projectVector, hx, ok_bind, planeProject_eq, hr, hq]
  obtain ⟨C, hC⟩ : ∃ C, C = Real.exp (eps u) := ⟨_, rfl⟩
  obtain ⟨K, hK⟩ : ∃ K, K = Real.exp ((2 * n + 6) * eps u) := ⟨_, rfl⟩
  have hC1 : 1 ≤ C := by rw [hC]; exact Real.one_le_exp hε
  have hK1 : 1 ≤ K := by rw [hK]; exact one_le_exp_eps h (by positivity)
  have hCK : ((1 - u) ^ (2 * n + 9))⁻¹ = C * C * C * K := by
    rw [← exp_nat h (k := 2 * n + 9) (by push_cast; ring), hC, hK, ← Real.exp_add, ← Real.exp_add, ← Real.exp_add]
    congr 1; ring
  rw [hCK]
  rw [← hC, ← hK] at hre
  obtain ⟨M, hM⟩ : ∃ M, M = ‖p‖ + ‖w‖ := ⟨_, rfl⟩
  have hp0 := norm_nonneg p
  have hw0 := norm_nonneg w
  have hM0 : 0 ≤ M := by rw [hM]; positivity
  rw [← hM]
  have e1 := CRP.norm_sub_le (fun i => by rw [hxi]; exact h.rp _ : CRP (eps u) 1 x (p + w)) (by linarith)
  rw [one_mul, ← hC] at e1
  have e2 : ‖p + w‖ ≤ M := by rw [hM]; exact norm_add_le _ _
  have e3 : ‖x - (p + w)‖ ≤ (C - 1) * M := e1.trans (mul_le_mul_of_nonneg_left e2 (by linarith))
  have e4 : ‖x‖ ≤ C * M := by
    calc ‖x‖ = ‖(x - (p + w)) + (p + w)‖ := by congr 1; abel
      _ ≤ _ := norm_add_le _ _
      _ ≤ _ := by linarith
  have e5 : dist p x ≤ C * M := by
    rw [dist_comm, dist_eq_norm]
    calc ‖x - p‖ = ‖(x - (p + w)) + w‖ := by congr 1; abel
      _ ≤ _ := norm_add_le _ _
      _ ≤ _ := by rw [hM] at e3 ⊢; linarith
  have e6 : ‖r - foot x m p‖ ≤ (C - 1) * (C * M) + (K - 1) * (C * M) :=
    hre.trans (add_le_add (mul_le_mul_of_nonneg_left e4 (by linarith)) (mul_le_mul_of_nonneg_left e5 (by linarith)))
  obtain ⟨g, hg⟩ : ∃ g, g = w - (inner ℝ w m / ‖m‖ ^ 2) • m := ⟨_, rfl⟩
  have hgw : ‖g‖ ≤ M := by rw [hg, hM]; exact (perp_part_le m w).trans (by linarith)
  rw [← hg]
  have e7 : ‖foot x m p - (p + g)‖ ≤ (C - 1) * M := by
    have : foot x m p - (p + g) = (x - (p + w)) - (inner ℝ (x - (p + w)) m / ‖m‖ ^ 2) • m := by
      rw [hg, foot_plane, show x - p = (x - (p + w)) + w by abel, inner_add_left, add_div, add_smul]
      abel
    rw [this]
    exact (perp_part_le _ _).trans e3
  have e8 : ‖(r - p) - g‖ ≤ (C * C * K - 1) * M := by
    have h0 : 0 ≤ C * (C - 1) * (K - 1) * M := by
      have := mul_nonneg (mul_nonneg (mul_nonneg (by linarith : (0:ℝ) ≤ C) (by linarith : (0:ℝ) ≤ C - 1)) (by linarith : (0:ℝ) ≤ K - 1)) hM0
      exact this
    calc ‖(r - p) - g‖ = ‖(r - foot x m p) + (foot x m p - (p + g))‖ := by congr 1; abel
      _ ≤ _ := norm_add_le _ _
      _ ≤ (C - 1) * (C * M) + (K - 1) * (C * M) + (C - 1) * M := add_le_add e6 e7
      _ ≤ _ := by nlinarith
  have e9 : ‖r - p‖ ≤ C * C * K * M := by
    calc ‖r - p‖ = ‖((r - p) - g) + g‖ := by congr 1; abel
      _ ≤ _ := norm_add_le _ _
      _ ≤ _ := by linarith
  have e10 := CRP.norm_sub_le (crp_sub h hqi) (by linarith)
  rw [one_mul, ← hC] at e10
  calc ‖q - g‖ = ‖(q - (r - p)) + ((r - p) - g)‖ := by congr 1; abel
    _ ≤ _ := norm_add_le _ _
    _ ≤ (C - 1) * (C * C * K * M) + (C * C * K - 1) * M :=
      add_le_add (e10.trans (mul_le_mul_of_nonneg_left e9 (by linarith))) e8
    _ = _ := by ring

/-- C113: `plane.project_line(line)` under rounding, default keywords.  If the line is not within `1.5e-9` (in cosine) of
perpendicular to the plane and the projected direction is longer than its own error bound, a line is returned; its point is
within `u/(1-u) ‖a‖ + ((1-u)^-(2n+6) - 1) dist a p` of the projection of the line's point `a`, and its direction within
`((1-u)^-(2n+9) - 1) (‖p‖ + ‖d‖)` of the projection of the line's direction `d`. -/
theorem C113_plane_project_line [NeZero n] (h : StdRounding u fl) (hu : (2 * n + 6) * u ≤ 4 / 10000000000) (p m a d : E n)
    (hm : m ≠ 0) (hd : d ≠ 0) (hcos : |cosE m d| < 1 - 15 / 10000000000)
    (hlong : (((1 - u) ^ (2 * n + 9))⁻¹ - 1) * (‖p‖ + ‖d‖) < ‖d - (inner ℝ d m / ‖m‖ ^ 2) • m‖) :
    ∃ q w : E n, @Plane.projectLine ℝ (rounded fl) (@Tol.default ℝ (rounded fl)) ⟨arr p, arr m⟩ ⟨arr a, arr d⟩ =
        .ok ⟨arr q, arr w⟩ ∧ w ≠ 0 ∧
      dist q (a - (inner ℝ (a - p) m / ‖m‖ ^ 2) • m) ≤
        ((1 - u)⁻¹ - 1) * ‖a‖ + (((1 - u) ^ (2 * n + 6))⁻¹ - 1) * dist a p ∧
      ‖w - (d - (inner ℝ d m / ‖m‖ ^ 2) • m)‖ ≤ (((1 - u) ^ (2 * n + 9))⁻¹ - 1) * (‖p‖ + ‖d‖) := by
  classical
  have hu0 := h.nonneg
  have hu2 : u ≤ 1 / 2 := by
    have : (0:ℝ) ≤ n := by positivity
    nlinarith
  obtain ⟨b, hb, -, hb2⟩ := C77_is_parallel h hu m d
  have hbf : b = false := by
    by_contra hc
    rcases hb2 (by simpa using hc) with h1 | h1 | h1
    · exact hm h1
    · exact hd h1
    · linarith
  subst hbf
  obtain ⟨q, hq, hqe⟩ := C78_line_project h a m p hm
  rw [dist_comm p a, foot_plane] at hqe
  obtain ⟨w, hw, hwe⟩ := C113_plane_project_vector h p m d hm
  obtain ⟨D, hD⟩ : ∃ D, D = @dotv ℝ (rounded fl) (arr m) (arr d) := ⟨_, rfl⟩
  have hpp : @Vec.isPerpendicular ℝ (rounded fl) (@Tol.default ℝ (rounded fl)) (arr m) (arr d) = .ok (decide (D = 0)) := by
    simp only [Vec.isPerpendicular, dot_rd, ok_bind, ← hD, isclose_zero_rd h hu2]
  by_cases hD0 : D = 0
  · refine ⟨q, d, ?_, hd, hqe, ?_⟩
    · simp only [Plane.projectLine, hb, ok_bind, Bool.false_eq_true, if_false, planeProject_eq, hq, hpp, hD0, decide_true,
        if_true, ((C73_constructors h hu2 q d).1 hd).1]
    · have e1 := h.dotv_abs' le_rfl le_rfl (CRP.refl (eps u) m) (CRP.refl (eps u) d)
      rw [← hD, hD0, zero_sub, abs_neg, real_inner_comm] at e1
      have hm0 : 0 < ‖m‖ := norm_pos_iff.mpr hm
      have e2 : ‖d - (d - (inner ℝ d m / ‖m‖ ^ 2) • m)‖ = |(inner ℝ d m : ℝ)| / ‖m‖ := by
        rw [sub_sub_cancel, norm_smul, Real.norm_eq_abs, abs_div, abs_of_pos (by positivity : (0:ℝ) < ‖m‖ ^ 2)]
        field_simp
      rw [e2, div_le_iff₀ hm0]
      refine e1.trans ?_
      have e3 : Real.exp ((0 + 0 + 1 + n) * eps u) ≤ ((1 - u) ^ (2 * n + 9))⁻¹ := by
        rw [← exp_nat h (k := 2 * n + 9) (by push_cast; ring)]
        apply Real.exp_le_exp.mpr
        apply mul_le_mul_of_nonneg_right _ h.eps_nonneg
        have : (0:ℝ) ≤ n := by positivity
        linarith
      have e4 : 0 ≤ Real.exp ((0 + 0 + 1 + n) * eps u) - 1 := by
        have := one_le_exp_eps h (k := 0 + 0 + 1 + n) (by positivity)
        linarith
      have hd0 := norm_nonneg d
      have hp0 := norm_nonneg p
      have e5 : ‖m‖ * ‖d‖ ≤ ‖m‖ * (‖p‖ + ‖d‖) := mul_le_mul_of_nonneg_left (by linarith) hm0.le
      have e6 : Real.exp ((0 + 0 + 1 + n) * eps u) - 1 ≤ ((1 - u) ^ (2 * n + 9))⁻¹ - 1 := by linarith
      calc _ ≤ (((1 - u) ^ (2 * n + 9))⁻¹ - 1) * (‖m‖ * (‖p‖ + ‖d‖)) :=
            mul_le_mul e6 e5 (by positivity) (e4.trans e6)
        _ = _ := by ring
  · have hw0 : w ≠ 0 := by
      rintro rfl
      rw [zero_sub, norm_neg] at hwe
      linarith
    refine ⟨q, w, ?_, hw0, hqe, hwe⟩
    simp only [Plane.projectLine, hb, ok_bind, Bool.false_eq_true, if_false, planeProject_eq, hq, hpp, hD0, decide_false,
        hw, ((C73_constructors h hu2 q w).1 hw0).1]

/-- C113: `points.mean_center(return_centroid=True)` under rounding: for `m` points, every coordinate `j` of every returned
point is within `u/(1-u) |x_j - c_j| + ((1-u)^-(m+2) - 1) mean |x_j|` of that of `x - c`, where `c` is the exact centroid;
the returned centroid is that of `centroid()`. -/
theorem C113_mean_center [NeZero n] (h : StdRounding u fl) {P : List (E n)} (hP : P ≠ []) :
    ∃ (Q : List (E n)) (c' : E n), @Pts.meanCenter ℝ (rounded fl) (rows P) = .ok (rows Q, arr c') ∧
      @Pts.centroid ℝ (rounded fl) (rows P) = .ok (arr c') ∧
      List.Forall₂ (fun x q => ∀ j, |q j - (x j - ((P.length : ℝ)⁻¹ • P.sum) j)| ≤
        ((1 - u)⁻¹ - 1) * |x j - ((P.length : ℝ)⁻¹ • P.sum) j| +
        (((1 - u) ^ (P.length + 2))⁻¹ - 1) * ((P.map fun x => |x j|).sum / P.length)) P Q := by
  have hε := h.eps_nonneg
  obtain ⟨c', h1, h2⟩ := C91_centroid h hP
  choose z hz hzi using fun x : E n => vsub_rd (fl := fl) x c'
  have h3 : (rows P).mapM (fun y => @vsub ℝ (rounded fl) y (arr c')) = .ok (P.map fun x => arr (z x)) :=
    mapM_rows P _ (fun x => arr (z x)) (fun x _ => hz x)
  have h4 : (P.map fun x => arr (z x)) = rows (P.map z) := by simp [rows]
  refine ⟨P.map z, c', ?_, h1, ?_⟩
  · simp only [Pts.meanCenter, h1, ok_bind, h3, h4, pure_ok]
  rw [List.forall₂_map_right_iff, List.forall₂_same]
  intro x _ j
  obtain ⟨c, hc⟩ : ∃ c, c = ((P.length : ℝ)⁻¹ • P.sum) j := ⟨_, rfl⟩
  obtain ⟨M, hM⟩ : ∃ M, M = (P.map fun x => |x j|).sum / P.length := ⟨_, rfl⟩
  have hM0 : 0 ≤ M := by
    rw [hM]
    apply div_nonneg _ (by positivity)
    apply List.sum_nonneg
    intro y hy
    obtain ⟨w, -, rfl⟩ := List.mem_map.mp hy
    positivity
  have e1 := h2 j
  rw [← hc, ← hM] at e1 ⊢
  obtain ⟨C, hC⟩ : ∃ C, C = Real.exp (eps u) := ⟨_, rfl⟩
  have hC1 : 1 ≤ C := by rw [hC]; exact Real.one_le_exp hε
  obtain ⟨A, hA⟩ : ∃ A, A = Real.exp ((P.length + 1) * eps u) := ⟨_, rfl⟩
  have hAA : ((1 - u) ^ (P.length + 1))⁻¹ = A := by rw [hA, exp_nat h]; push_cast; ring
  have hAC : ((1 - u) ^ (P.length + 2))⁻¹ = A * C := by
    rw [hA, hC, ← Real.exp_add, ← exp_nat h (k := P.length + 2) (by push_cast; ring)]; congr 1; ring
  rw [hAA] at e1
  rw [hAC, ← exp_one_eps h, ← hC, hzi]
  have e2 := (h.rp (x j - c' j)).abs_sub_le
  rw [one_mul, ← hC] at e2
  have e3 : |x j - c' j| ≤ |x j - c| + (A - 1) * M := by
    calc |x j - c' j| = |(x j - c) + -(c' j - c)| := by ring_nf
      _ ≤ _ := abs_add_le _ _
      _ ≤ _ := by rw [abs_neg]; linarith
  calc |fl (x j - c' j) - (x j - c)| = |(fl (x j - c' j) - (x j - c' j)) + -(c' j - c)| := by ring_nf
    _ ≤ _ := abs_add_le _ _
    _ ≤ (C - 1) * (|x j - c| + (A - 1) * M) + (A - 1) * M := by
      rw [abs_neg]
      exact add_le_add (e2.trans (mul_le_mul_of_nonneg_left e3 (by linarith))) e1
    _ ≤ _ := by nlinarith

/-- C113: binary64 instances. -/
example : (∃ Q : List (E 2), @Line.projectPoints ℝ (rounded (leftToRight (roundNearest 53))) ⟨arr (vec2 0 1), arr (vec2 1 (1 / 10))⟩
      (rows [vec2 2 3, vec2 (1 / 3) 5]) = .ok (rows Q) ∧ Q.length = 2) ∧
    (∃ Q : List (E 2), @Plane.projectPoints ℝ (rounded (leftToRight (roundNearest 53))) ⟨arr (vec2 0 1), arr (vec2 1 (1 / 10))⟩
      (rows [vec2 2 3, vec2 (1 / 3) 5]) = .ok (rows Q) ∧ Q.length = 2) ∧
    (∃ D, @Line.distancePoints ℝ (rounded (leftToRight (roundNearest 53))) ⟨arr (vec2 0 1), arr (vec2 1 (1 / 10))⟩
      (rows [vec2 2 3, vec2 (1 / 3) 5]) = .ok D ∧ D.length = 2) ∧
    (∃ D, @Plane.distancePoints ℝ (rounded (leftToRight (roundNearest 53))) ⟨arr (vec2 0 1), arr (vec2 1 (1 / 10))⟩
      (rows [vec2 2 3, vec2 (1 / 3) 5]) = .ok D ∧ D.length = 2) ∧
    (∃ s, @Line.sumSquares ℝ (rounded (leftToRight (roundNearest 53))) ⟨arr (vec2 0 1), arr (vec2 1 (1 / 10))⟩
      (rows [vec2 2 3, vec2 (1 / 3) 5]) = .ok s) ∧
    (∃ s, @Plane.sumSquares ℝ (rounded (leftToRight (roundNearest 53))) ⟨arr (vec2 0 1), arr (vec2 1 (1 / 10))⟩
      (rows [vec2 2 3, vec2 (1 / 3) 5]) = .ok s) ∧
    (∃ q : E 2, @Plane.projectVector ℝ (rounded (leftToRight (roundNearest 53))) ⟨arr (vec2 0 1), arr (vec2 1 (1 / 10))⟩
      (arr (vec2 2 3)) = .ok (arr q)) ∧
    ∃ (Q : List (E 2)) (c : E 2), @Pts.meanCenter ℝ (rounded (leftToRight (roundNearest 53))) (rows [vec2 2 3, vec2 (1 / 3) 5]) =
      .ok (rows Q, arr c) ∧ Q.length = 2 := by
  have hP : [vec2 2 3, vec2 (1 / 3) 5] ≠ [] := by simp
  refine ⟨?_, ?_, ?_, ?_, ?_, ?_, ?_, ?_⟩
  · obtain ⟨Q, h1, h2⟩ := C113_line_project_points std53 (vec2 0 1) _ vec2_ne hP; exact ⟨Q, h1, h2.length_eq.symm⟩
  · obtain ⟨Q, h1, h2⟩ := C113_plane_project_points std53 (vec2 0 1) _ vec2_ne hP; exact ⟨Q, h1, h2.length_eq.symm⟩
  · obtain ⟨Q, h1, h2⟩ := C113_line_distance_points std53 (vec2 0 1) _ vec2_ne hP; exact ⟨Q, h1, h2.length_eq.symm⟩
  · obtain ⟨Q, h0, h1, h2⟩ := C113_plane_distance_points std53 (vec2 0 1) _ vec2_ne hP
    exact ⟨_, h1, by rw [List.length_map]; exact h2.length_eq.symm⟩
  · obtain ⟨s, h1, -⟩ := C113_line_sum_squares std53 (vec2 0 1) _ vec2_ne hP; exact ⟨s, h1⟩
  · obtain ⟨s, h1, -⟩ := C113_plane_sum_squares std53 (vec2 0 1) _ vec2_ne hP; exact ⟨s, h1⟩
  · obtain ⟨s, h1, -⟩ := C113_plane_project_vector std53 (vec2 0 1) _ (vec2 2 3) vec2_ne; exact ⟨s, h1⟩
  · obtain ⟨Q, c, h1, -, h2⟩ := C113_mean_center std53 hP; exact ⟨Q, c, h1, h2.length_eq.symm⟩

/-- C113: a binary64 instance of the projected line: the `x`-`y` plane moved to height 1 and the line with direction `(1, 0, 1)`. -/
example : ∃ q w : E 3, @Plane.projectLine ℝ (rounded (leftToRight (roundNearest 53)))
    (@Tol.default ℝ (rounded (leftToRight (roundNearest 53)))) ⟨arr (vec3 0 0 1), arr (vec3 0 0 1)⟩ ⟨arr (vec3 2 3 4), arr (vec3 1 0 1)⟩ =
      .ok ⟨arr q, arr w⟩ ∧ w ≠ 0 := by
  have hm : vec3 0 0 1 ≠ 0 := fun h => by simpa [vec3] using congrArg (fun v : E 3 => v 2) h
  have hd : vec3 1 0 1 ≠ 0 := fun h => by simpa [vec3] using congrArg (fun v : E 3 => v 2) h
  have n1 : ‖vec3 0 0 1‖ = 1 := by rw [← sq_eq_sq₀ (norm_nonneg _) zero_le_one, norm_sq3]; simp [vec3]
  have n2 : ‖vec3 1 0 1‖ ^ 2 = 2 := by rw [norm_sq3]; simp [vec3]; norm_num
  have i1 : (inner ℝ (vec3 1 0 1) (vec3 0 0 1) : ℝ) = 1 := by rw [inner3]; simp [vec3]
  have n3 : ‖vec3 1 0 1‖ ≤ 2 := by nlinarith [norm_nonneg (vec3 1 0 1)]
  have n4 : 7 / 5 ≤ ‖vec3 1 0 1‖ := by nlinarith [norm_nonneg (vec3 1 0 1)]
  have hcos : |cosE (vec3 0 0 1) (vec3 1 0 1)| < 1 - 15 / 10000000000 := by
    rw [cosE, real_inner_comm, i1, n1, one_mul, abs_of_nonneg (by positivity), div_lt_iff₀ (by linarith)]
    linarith
  obtain ⟨q, w, h1, h2, -⟩ := C113_plane_project_line std53 (by norm_num) (vec3 0 0 1) (vec3 0 0 1) (vec3 2 3 4) (vec3 1 0 1) hm hd hcos
    (by
      have : vec3 1 0 1 - ((inner ℝ (vec3 1 0 1) (vec3 0 0 1) : ℝ) / ‖vec3 0 0 1‖ ^ 2) • vec3 0 0 1 = vec3 1 0 0 := by
        rw [i1, n1]
        ext i
        fin_cases i <;> simp [vec3]
      rw [this, n1]
      have n5 : ‖vec3 1 0 0‖ = 1 := by rw [← sq_eq_sq₀ (norm_nonneg _) zero_le_one, norm_sq3]; simp [vec3]
      rw [n5]
      have : (((1 - (2 : ℝ) ^ (-((53 : ℕ) : ℤ))) ^ (2 * 3 + 9))⁻¹ - 1) ≤ 1 / 10 := by norm_num
      nlinarith [norm_nonneg (vec3 1 0 1)])
  exact ⟨q, w, h1, h2⟩

end SkSpatial
