import Verif.Props.Rounding12
/-! # C95: projections, coordinates and normalisation under rounding -/

namespace SkSpatial
open StdRounding

variable {u : ℝ} {fl : Arith} {n : ℕ}

/-- C95: `v.project_vector(w)` under rounding is within `((1-u)^-(2n+4) - 1) ‖w‖` of the exact projection of `w` onto
the line spanned by `v`.  (`line.project_vector(w)` is the same method of the direction.) -/
theorem C95_project_vector (h : StdRounding u fl) (v w : E n) (hv : v ≠ 0) :
    ∃ q : E n, @Vec.projectVector ℝ (rounded fl) (arr v) (arr w) = .ok (arr q) ∧
      ‖q - (inner ℝ v w / ‖v‖ ^ 2 : ℝ) • v‖ ≤ (((1 - u) ^ (2 * n + 4))⁻¹ - 1) * ‖w‖ := by
  have hε := h.eps_nonneg
  obtain ⟨D, hD⟩ : ∃ D, D = @dotv ℝ (rounded fl) (arr v) (arr w) := ⟨_, rfl⟩
  obtain ⟨V, hV⟩ : ∃ V, V = @dotv ℝ (rounded fl) (arr v) (arr v) := ⟨_, rfl⟩
  have hD' := h.dotv_abs' le_rfl le_rfl (CRP.refl _ v) (CRP.refl (eps u) w)
  have hV' := h.dotv_self_rp le_rfl (CRP.refl _ v)
  rw [← hD] at hD'
  rw [← hV] at hV'
  obtain ⟨s, hs, hsi⟩ := smul_rd (fl := fl) (fl (D / V)) v
  refine ⟨s, ?_, ?_⟩
  · simp only [Vec.projectVector, dot_rd, ← hD, ← hV, pure_ok, ok_bind, div_rd, hs]
  have hv0 : 0 < ‖v‖ := norm_pos_iff.mpr hv
  obtain ⟨W, hW⟩ : ∃ W, W = ‖w‖ := ⟨_, rfl⟩
  have hW0 : 0 ≤ W := by rw [hW]; exact norm_nonneg _
  rw [← hW] at hD' ⊢
  obtain ⟨A, hA⟩ : ∃ A, A = Real.exp ((0 + 0 + 1 + n) * eps u) := ⟨_, rfl⟩
  obtain ⟨B, hB⟩ : ∃ B, B = Real.exp ((n + 3) * eps u) := ⟨_, rfl⟩
  have hA1 : 1 ≤ A := by rw [hA]; exact one_le_exp_eps h (by positivity)
  have hB1 : 1 ≤ B := by rw [hB]; exact one_le_exp_eps h (by positivity)
  rw [← hA] at hD'
  obtain ⟨s₀, hs₀⟩ : ∃ s₀ : E n, s₀ = (D / ‖v‖ ^ 2) • v := ⟨_, rfl⟩
  have hcs : CRP (eps u) (n + 3) s s₀ := by
    intro i
    rw [hsi, hs₀]
    have := h.step ((h.step ((RP.refl (eps u) D).div hV')).mul (RP.refl (eps u) (v i)))
    rw [show (0 : ℝ) + (2 * 0 + 1 + n) + 1 + 0 + 1 = n + 3 by ring] at this
    simpa using this
  have e1 := CRP.norm_sub_le hcs (by positivity)
  rw [← hB] at e1
  obtain ⟨I, hI⟩ : ∃ I : ℝ, I = inner ℝ v w := ⟨_, rfl⟩
  rw [← hI] at hD' ⊢
  have hIW : |I| ≤ ‖v‖ * W := by rw [hI, hW]; exact abs_real_inner_le_norm _ _
  have hDb : |D| ≤ A * (‖v‖ * W) := by
    calc |D| = |(D - I) + I| := by ring_nf
      _ ≤ _ := abs_add_le _ _
      _ ≤ _ := by linarith
  have nsmul : ∀ c : ℝ, ∀ b : ℝ, |c| ≤ b * (‖v‖ * W) → ‖(c / ‖v‖ ^ 2) • v‖ ≤ b * W := by
    intro c b hcb
    rw [norm_smul, Real.norm_eq_abs, abs_div, abs_of_pos (by positivity : (0:ℝ) < ‖v‖ ^ 2), div_mul_eq_mul_div,
      div_le_iff₀ (by positivity)]
    calc |c| * ‖v‖ ≤ b * (‖v‖ * W) * ‖v‖ := by gcongr
      _ = b * W * ‖v‖ ^ 2 := by ring
  have n0 : ‖s₀‖ ≤ A * W := by rw [hs₀]; exact nsmul _ _ hDb
  have n1 : ‖s₀ - (I / ‖v‖ ^ 2) • v‖ ≤ (A - 1) * W := by
    rw [hs₀, ← sub_smul, ← sub_div]; exact nsmul _ _ hD'
  have hAB : ((1 - u) ^ (2 * n + 4))⁻¹ = B * A := by
    rw [hA, hB, ← Real.exp_add, ← add_mul, h.exp_eps, show (n + 3 + (0 + 0 + 1 + n) : ℝ) = ((2 * n + 4 : ℕ) : ℝ) by push_cast; ring,
      Real.rpow_natCast]
  rw [hAB]
  calc ‖s - (I / ‖v‖ ^ 2) • v‖ = ‖(s - s₀) + (s₀ - (I / ‖v‖ ^ 2) • v)‖ := by congr 1; abel
    _ ≤ ‖s - s₀‖ + ‖s₀ - (I / ‖v‖ ^ 2) • v‖ := norm_add_le _ _
    _ ≤ (B - 1) * (A * W) + (A - 1) * W :=
        add_le_add (e1.trans (mul_le_mul_of_nonneg_left n0 (by linarith))) n1
    _ = _ := by ring

/-- C95: `v.scalar_projection(w)` under rounding is within `((1-u)^-((3n+7)/2) - 1) ‖w‖` of `⟨v, w⟩ / ‖v‖`. -/
theorem C95_scalar_projection (h : StdRounding u fl) (v w : E n) (hv : v ≠ 0) :
    ∃ s : ℝ, @Vec.scalarProjection ℝ (rounded fl) (arr v) (arr w) = .ok s ∧
      |s - inner ℝ v w / ‖v‖| ≤ (((1 - u) ^ ((3 * n + 7) / 2 : ℝ))⁻¹ - 1) * ‖w‖ := by
  have hv0 : 0 < ‖v‖ := norm_pos_iff.mpr hv
  obtain ⟨z, hz, cz⟩ := unit_rd h v hv
  have h1 := h.dotv_abs' (by positivity) le_rfl cz (CRP.refl (eps u) w)
  refine ⟨@dotv ℝ (rounded fl) (arr z) (arr w), ?_, ?_⟩
  · simp only [Vec.scalarProjection, hz, ok_bind, dot_rd]
  · rw [real_inner_smul_left, norm_smul, norm_inv, norm_norm, inv_mul_cancel₀ hv0.ne', one_mul, h.exp_eps,
      show ((n + 5) / 2 + 0 + 1 + n : ℝ) = (3 * n + 7) / 2 by ring] at h1
    rwa [div_eq_inv_mul]

/-- C95: `transform_coordinates(points, origin, basis)` under rounding: the coordinate of `x` along `b` is within
`((1-u)^-(n+2) - 1) ‖x - o‖ ‖b‖` of `⟨x - o, b⟩`, for any basis vectors. -/
theorem C95_transform_coordinates (h : StdRounding u fl) {k : ℕ} (hk : k ≠ 0) (o : E n) (b : Fin k → E n)
    {P : List (E n)} (hP : P ≠ []) :
    ∃ Q : List (E k), @transformCoordinates ℝ (rounded fl) (rows P) (arr o) (rows (List.ofFn b)) = .ok (rows Q) ∧
      List.Forall₂ (fun x q => ∀ i, |q i - inner ℝ (x - o) (b i)| ≤
        (((1 - u) ^ (n + 2))⁻¹ - 1) * (dist x o * ‖b i‖)) P Q := by
  have hbr : List.ofFn b ≠ [] := by
    intro h; have := congrArg List.length h; simp at this; exact hk this
  obtain ⟨z, hz⟩ : ∃ z : E n → E n, ∀ x, @vsub ℝ (rounded fl) (arr x) (arr o) = .ok (arr (z x)) ∧
      ∀ i, z x i = fl (x i - o i) := ⟨fun x => (vsub_rd (fl := fl) x o).choose, fun x => (vsub_rd (fl := fl) x o).choose_spec⟩
  have h1 : (rows P).mapM (fun q => @vsub ℝ (rounded fl) q (arr o)) = .ok (P.map fun x => arr (z x)) :=
    mapM_rows P _ (fun x => arr (z x)) (fun x _ => (hz x).1)
  let f : E n → E k := fun x => WithLp.toLp 2 fun i => @dotv ℝ (rounded fl) (arr (z x)) (arr (b i))
  have h2 : (P.map fun x => arr (z x)).mapM (fun v => (rows (List.ofFn b)).mapM fun b => @dot ℝ (rounded fl) v b) =
      .ok (P.map fun x => arr (f x)) := by
    apply mapM_map_ok
    intro x _
    rw [mapM_rows (List.ofFn b) _ (fun c => @dotv ℝ (rounded fl) (arr (z x)) (arr c)) (fun c _ => dot_rd fl (z x) c)]
    congr 1
    apply List.ext_getElem <;> simp [arr, f]
  refine ⟨P.map f, ?_, ?_⟩
  · simp only [transformCoordinates, checkRows_rows hP, checkRows_rows hbr, ok_bind, h1, h2]
    simp [rows]
  · rw [List.forall₂_map_right_iff, List.forall₂_same]
    intro x _ i
    have hc : CRP (eps u) 1 (z x) (x - o) := fun i => by rw [(hz x).2]; exact h.rp _
    have h3 := h.dotv_abs' zero_le_one le_rfl hc (CRP.refl (eps u) (b i))
    rw [h.exp_eps, show (1 + 0 + 1 + n : ℝ) = ((n + 2 : ℕ) : ℝ) by push_cast; ring, Real.rpow_natCast, ← dist_eq_norm] at h3
    exact h3

/-- C95: `line.transform_points(points)` under rounding: the coordinate of `x` along the line through `p` with direction
`d` is within `((1-u)^-((3n+9)/2) - 1) dist x p` of `⟨x - p, d⟩ / ‖d‖`. -/
theorem C95_transform_points (h : StdRounding u fl) (p d : E n) (hd : d ≠ 0) {P : List (E n)} (hP : P ≠ []) :
    ∃ Q : List ℝ, @Line.transformPoints ℝ (rounded fl) ⟨arr p, arr d⟩ (rows P) = .ok Q ∧
      List.Forall₂ (fun x s => |s - inner ℝ (x - p) d / ‖d‖| ≤
        (((1 - u) ^ ((3 * n + 9) / 2 : ℝ))⁻¹ - 1) * dist x p) P Q := by
  have hd0 : 0 < ‖d‖ := norm_pos_iff.mpr hd
  obtain ⟨e, he, ce⟩ := unit_rd h d hd
  obtain ⟨z, hz⟩ : ∃ z : E n → E n, ∀ x, @vsub ℝ (rounded fl) (arr x) (arr p) = .ok (arr (z x)) ∧
      ∀ i, z x i = fl (x i - p i) := ⟨fun x => (vsub_rd (fl := fl) x p).choose, fun x => (vsub_rd (fl := fl) x p).choose_spec⟩
  have h1 : (rows P).mapM (fun q => @vsub ℝ (rounded fl) q (arr p)) = .ok (P.map fun x => arr (z x)) :=
    mapM_rows P _ (fun x => arr (z x)) (fun x _ => (hz x).1)
  have h2 : (P.map fun x => arr (z x)).mapM (fun v => [arr e].mapM fun b => @dot ℝ (rounded fl) v b) =
      .ok (P.map fun x => [@dotv ℝ (rounded fl) (arr (z x)) (arr e)]) := by
    apply mapM_map_ok
    intro x _
    simp only [List.mapM_cons, List.mapM_nil, dot_rd, ok_bind, pure_ok]
  refine ⟨P.map fun x => @dotv ℝ (rounded fl) (arr (z x)) (arr e), ?_, ?_⟩
  · have h3 : checkRows [arr e] = .ok () := by simp [checkRows]
    simp only [Line.transformPoints, he, ok_bind, transformCoordinates, checkRows_rows hP, h3, h1, h2, pure_ok]
    congr 1
    clear h1 h2 hP
    induction P with
    | nil => rfl
    | cons a l ih => simp [ih]
  · rw [List.forall₂_map_right_iff, List.forall₂_same]
    intro x _
    have hc : CRP (eps u) 1 (z x) (x - p) := fun i => by rw [(hz x).2]; exact h.rp _
    have h3 := h.dotv_abs' zero_le_one (by positivity) hc ce
    rw [real_inner_smul_right, norm_smul, norm_inv, norm_norm, inv_mul_cancel₀ hd0.ne', mul_one, h.exp_eps, ← dist_eq_norm,
      show (1 + (n + 5) / 2 + 1 + n : ℝ) = (3 * n + 9) / 2 by ring, ← div_eq_inv_mul] at h3
    exact h3

theorem maxL_rd_mem (fl : Arith) : ∀ l : List ℝ, l ≠ [] → @Pts.maxL ℝ (rounded fl) l ∈ l ∧ ∀ y ∈ l, y ≤ @Pts.maxL ℝ (rounded fl) l
  | [], h => absurd rfl h
  | [x], _ => by simp [Pts.maxL]
  | x :: y :: l, _ => by
    classical
    obtain ⟨h1, h2⟩ := maxL_rd_mem fl (y :: l) (by simp)
    have e : @Pts.maxL ℝ (rounded fl) (x :: y :: l) = if x < @Pts.maxL ℝ (rounded fl) (y :: l) then
      @Pts.maxL ℝ (rounded fl) (y :: l) else x := by
      simp only [Pts.maxL, lt_rd, decide_eq_true_eq]
    rw [e]
    split
    · next hlt =>
      refine ⟨List.mem_cons_of_mem _ h1, fun w hw => ?_⟩
      rcases List.mem_cons.mp hw with rfl | hw
      · exact hlt.le
      · exact h2 w hw
    · next hge =>
      refine ⟨List.mem_cons_self, fun w hw => ?_⟩
      rcases List.mem_cons.mp hw with rfl | hw
      · exact le_rfl
      · exact (h2 w hw).trans (not_lt.mp hge)

/-- C95: `points.normalize_distance()` under rounding, for points that are not all zero: every point is divided by a
number within a relative error of `(1-u)^-((n+3)/2) - 1` of the largest norm, one more rounding per coordinate; no point ends up further
than `(1-u)^-((n+5)/2)` from the origin, and the furthest one is not nearer than `(1-u)^((n+5)/2)`. -/
theorem C95_normalize_distance (h : StdRounding u fl) {P : List (E n)} (hP : ∃ x ∈ P, x ≠ 0) :
    ∃ Q : List (E n), @Pts.normalizeDistance ℝ (rounded fl) (rows P) = rows Q ∧
      (∀ q ∈ Q, ‖q‖ ≤ ((1 - u) ^ ((n + 5) / 2 : ℝ))⁻¹) ∧ (∃ q ∈ Q, (1 - u) ^ ((n + 5) / 2 : ℝ) ≤ ‖q‖) ∧
      ∃ M : ℝ, (∀ x ∈ P, ‖x‖ ≤ M) ∧ (∃ x ∈ P, ‖x‖ = M) ∧
        List.Forall₂ (fun x q => ∀ i, |q i - x i / M| ≤ (((1 - u) ^ ((n + 5) / 2 : ℝ))⁻¹ - 1) * |x i / M|) P Q := by
  have hε := h.eps_nonneg
  obtain ⟨x0, hx0, hx0'⟩ := hP
  have hne : P ≠ [] := List.ne_nil_of_mem hx0
  have hk : (0 : ℝ) ≤ (n + 3) / 2 := by positivity
  -- the largest exact norm
  obtain ⟨M, hM1, hM2⟩ : ∃ M, M ∈ P.map norm ∧ ∀ y ∈ P.map norm, y ≤ M :=
    ⟨_, (maxL_rd_mem (leftToRight id) (P.map norm) (by simpa using hne)).1, (maxL_rd_mem (leftToRight id) (P.map norm) (by simpa using hne)).2⟩
  have hM2' : ∀ x ∈ P, ‖x‖ ≤ M := fun x hx => hM2 _ (List.mem_map_of_mem hx)
  obtain ⟨x1, hx1, hx1M⟩ := List.mem_map.mp hM1
  have hM0 : 0 < M := (norm_pos_iff.mpr hx0').trans_le (hM2' x0 hx0)
  -- the largest computed norm
  have hl : (rows P).map (@normv ℝ (rounded fl)) = P.map fun x => @normv ℝ (rounded fl) (arr x) := by
    simp [rows, Function.comp_def]
  obtain ⟨m, hm⟩ : ∃ m, m = @Pts.maxL ℝ (rounded fl) ((rows P).map (@normv ℝ (rounded fl))) := ⟨_, rfl⟩
  have hm' := maxL_rd_mem fl ((rows P).map (@normv ℝ (rounded fl))) (by rw [hl]; simpa using hne)
  rw [← hm, hl] at hm'
  have hnr : ∀ x : E n, RP (eps u) ((n + 3) / 2) (@normv ℝ (rounded fl) (arr x)) ‖x‖ := fun x => by
    simpa using h.normv_rp le_rfl (CRP.refl (eps u) x)
  have hmM : RP (eps u) ((n + 3) / 2) m M := by
    obtain ⟨x2, hx2, hx2m⟩ := List.mem_map.mp hm'.1
    refine RP.of_le hM0.le ?_ ?_ (by positivity)
    · rw [← hx2m]
      exact ((hnr x2).le (norm_nonneg _)).trans (mul_le_mul_of_nonneg_left (hM2' x2 hx2) (Real.exp_pos _).le)
    · have e1 := hm'.2 _ (List.mem_map_of_mem hx1)
      have e2 := (hnr x1).le' (norm_nonneg _)
      rw [hx1M] at e2
      exact e2.trans (mul_le_mul_of_nonneg_left e1 (Real.exp_pos _).le)
  obtain ⟨q, hq⟩ : ∃ q : E n → E n, ∀ x, @sdiv ℝ (rounded fl) (arr x) m = arr (q x) ∧ ∀ i, q x i = fl (x i / m) :=
    ⟨fun x => (sdiv_rd (fl := fl) m x).choose, fun x => (sdiv_rd (fl := fl) m x).choose_spec⟩
  have hqc : ∀ x, CRP (eps u) ((n + 5) / 2) (q x) (M⁻¹ • x) := by
    intro x i
    rw [(hq x).2]
    have := h.step ((RP.refl (eps u) (x i)).div hmM)
    rw [show (0 + (n + 3) / 2 + 1 : ℝ) = (n + 5) / 2 by ring] at this
    rw [PiLp.smul_apply, smul_eq_mul, ← div_eq_inv_mul]
    exact this
  have hqn : ∀ x, RP (eps u) ((n + 5) / 2) ‖q x‖ (‖x‖ / M) := by
    intro x
    have := CRP.norm_rp (by positivity) (hqc x)
    rwa [norm_smul, norm_inv, Real.norm_of_nonneg hM0.le, ← div_eq_inv_mul] at this
  refine ⟨P.map q, ?_, ?_, ?_, M, hM2', ⟨x1, hx1, hx1M⟩, ?_⟩
  · simp only [Pts.normalizeDistance, ← hm]
    simp [rows, Function.comp_def, (hq _).1]
  · intro y hy
    obtain ⟨x, hx, rfl⟩ := List.mem_map.mp hy
    rw [← h.exp_eps]
    have e1 := (hqn x).le (by positivity)
    have e2 : ‖x‖ / M ≤ 1 := (div_le_one hM0).mpr (hM2' x hx)
    exact e1.trans (mul_le_of_le_one_right (Real.exp_pos _).le e2)
  · refine ⟨q x1, List.mem_map_of_mem hx1, ?_⟩
    have e1 := (hqn x1).le' (by positivity)
    rw [hx1M, div_self hM0.ne', h.exp_eps] at e1
    have hp : 0 < (1 - u) ^ ((n + 5) / 2 : ℝ) := Real.rpow_pos_of_pos (by linarith [h.lt_one]) _
    rwa [← div_eq_inv_mul, le_div_iff₀ hp, one_mul] at e1
  · rw [List.forall₂_map_right_iff, List.forall₂_same]
    intro x _ i
    have e1 := (hqc x i).abs_sub_le
    rw [PiLp.smul_apply, smul_eq_mul, ← div_eq_inv_mul, h.exp_eps] at e1
    exact e1

/-- C95: binary64 instances of all five statements. -/
example : (∃ q : E 2, @Vec.projectVector ℝ (rounded (leftToRight (roundNearest 53))) (arr (vec2 1 (1 / 10))) (arr (vec2 2 3)) = .ok (arr q)) ∧
    (∃ s, @Vec.scalarProjection ℝ (rounded (leftToRight (roundNearest 53))) (arr (vec2 1 (1 / 10))) (arr (vec2 2 3)) = .ok s) ∧
    (∃ Q, @Line.transformPoints ℝ (rounded (leftToRight (roundNearest 53))) ⟨arr (vec2 0 0), arr (vec2 1 (1 / 10))⟩
      (rows [vec2 2 3, vec2 (1 / 3) 5]) = .ok Q ∧ Q.length = 2) ∧
    (∃ Q : List (E 2), @transformCoordinates ℝ (rounded (leftToRight (roundNearest 53))) (rows [vec2 2 3, vec2 (1 / 3) 5]) (arr (vec2 0 1))
      (rows (List.ofFn ![vec2 1 (1 / 10), vec2 (-1 / 10) 1])) = .ok (rows Q) ∧ Q.length = 2) ∧
    ∃ Q : List (E 2), @Pts.normalizeDistance ℝ (rounded (leftToRight (roundNearest 53))) (rows [vec2 2 3, vec2 1 (1 / 10)]) = rows Q ∧
      Q.length = 2 := by
  refine ⟨?_, ?_, ?_, ?_, ?_⟩
  · obtain ⟨q, hq, -⟩ := C95_project_vector std53 (vec2 1 (1 / 10)) (vec2 2 3) vec2_ne; exact ⟨q, hq⟩
  · obtain ⟨q, hq, -⟩ := C95_scalar_projection std53 (vec2 1 (1 / 10)) (vec2 2 3) vec2_ne; exact ⟨q, hq⟩
  · obtain ⟨Q, hQ, hl⟩ := C95_transform_points std53 (vec2 0 0) (vec2 1 (1 / 10)) vec2_ne
      (P := [vec2 2 3, vec2 (1 / 3) 5]) (by simp)
    exact ⟨Q, hQ, hl.length_eq.symm⟩
  · obtain ⟨Q, hQ, hl⟩ := C95_transform_coordinates std53 two_ne_zero (vec2 0 1) ![vec2 1 (1 / 10), vec2 (-1 / 10) 1]
      (P := [vec2 2 3, vec2 (1 / 3) 5]) (by simp)
    exact ⟨Q, hQ, hl.length_eq.symm⟩
  · obtain ⟨Q, hQ, -, -, M, -, -, hl⟩ := C95_normalize_distance std53 (P := [vec2 2 3, vec2 1 (1 / 10)])
      ⟨_, by simp, vec2_ne⟩
    exact ⟨Q, hQ, hl.length_eq.symm⟩

end SkSpatial
