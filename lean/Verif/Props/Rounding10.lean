import Verif.Props.Rounding9
/-! # C91, C92: signed areas, centroids, lengths, surfaces and volumes under rounding -/

namespace SkSpatial
open StdRounding

variable {u : ℝ} {fl : Arith} {n : ℕ}

theorem newPoints_rd [NeZero n] {P : List (E n)} (h : P ≠ []) :
    @newPoints ℝ (rounded fl) (rows P) = .ok (rows P) := by
  rw [← newPoints_rows h]
  unfold newPoints
  rfl

theorem column_rd (P : List (E n)) (j : Fin n) : @column ℝ (rounded fl) (rows P) j = P.map fun x => x j := by
  rw [← column_rows P j]
  unfold column
  rw [zero_rd, zero_real]

/-- The list of terms of the shoelace sum, for any arithmetic on `ℝ`. -/
theorem shoelace_terms {m : ℕ} [NeZero m] (v : Fin m → E 2) (z : ℝ) (f : ℝ → ℝ → ℝ → ℝ → ℝ) :
    ((List.range m).map fun i =>
      f (((List.ofFn v).map fun x => x 0).getD (if i = 0 then m - 1 else i - 1) z)
        (((List.ofFn v).map fun x => x 1).getD i z) (((List.ofFn v).map fun x => x 0).getD i z)
        (((List.ofFn v).map fun x => x 1).getD (if i = 0 then m - 1 else i - 1) z)) =
      List.ofFn fun i : Fin m => f (v (i - 1) 0) (v i 1) (v i 0) (v (i - 1) 1) := by
  have hm : 0 < m := Nat.pos_of_ne_zero (NeZero.ne m)
  have hg : ∀ (i : ℕ) (hi : i < m) (j : Fin 2), ((List.ofFn v).map fun x => x j).getD i z = v ⟨i, hi⟩ j := by
    intro i hi j
    rw [List.getD_eq_getElem _ _ (by simpa using hi)]
    simp
  apply List.ext_getElem
  · simp
  · intro i h1 h2
    have hi : i < m := by simpa using h2
    have hp : (if i = 0 then m - 1 else i - 1) < m := by split <;> omega
    have hpv : (⟨if i = 0 then m - 1 else i - 1, hp⟩ : Fin m) = ⟨i, hi⟩ - 1 := by
      apply Fin.ext
      simp only [Fin.sub_def, Fin.val_one']
      by_cases hm1 : m = 1
      · subst hm1; simp at hi; simp [hi]
      · rw [Nat.mod_eq_of_lt (by omega : 1 < m)]
        split
        · subst_vars; rw [Nat.mod_eq_of_lt] <;> omega
        · rw [show m - 1 + i = (i - 1) + m by omega, Nat.add_mod_right, Nat.mod_eq_of_lt (by omega)]
    simp only [List.getElem_map, List.getElem_range, List.getElem_ofFn]
    rw [hg _ hp, hg _ hp, hg _ hi, hg _ hi, hpv]

theorem areaSigned_ofFn_rd {m : ℕ} [NeZero m] (hm : 3 ≤ m) (v : Fin m → E 2) :
    @Measurement.areaSigned ℝ (rounded fl) (rows (List.ofFn v)) = .ok (fl (fl (1 / 2) *
      @sumL ℝ (rounded fl) (List.ofFn fun i : Fin m => fl (fl (v (i - 1) 0 * v i 1) - fl (v i 0 * v (i - 1) 1))))) := by
  have hne : List.ofFn v ≠ [] := by
    intro h; have := congrArg List.length h; simp at this; omega
  have hX := column_rd (fl := fl) (List.ofFn v) (0 : Fin 2)
  have hY := column_rd (fl := fl) (List.ofFn v) (1 : Fin 2)
  simp only [Fin.val_zero, Fin.val_one] at hX hY
  have hlen : ¬ (List.ofFn v).length < 3 := by simp; omega
  have key := shoelace_terms v (@zero ℝ (rounded fl)) (fun a b c d => fl (fl (a * b) - fl (c * d)))
  simp only [Measurement.areaSigned, newPoints_rd hne, ok_bind, rowDim_rows hne, length_rows, hX, hY,
    ne_eq, not_true_eq_false, if_false, if_neg hlen, pure_ok, half_rd, mul_rd, sub_rd]
  rw [← key]
  simp only [List.length_ofFn]

theorem areaSigned_ofFn {m : ℕ} [NeZero m] (hm : 3 ≤ m) (v : Fin m → E 2) :
    Measurement.areaSigned (rows (List.ofFn v)) =
      .ok (1 / 2 * ∑ i : Fin m, (v (i - 1) 0 * v i 1 - v i 0 * v (i - 1) 1)) := by
  rw [C67_shoelace hm, shoelace]
  congr 2
  rw [← (Equiv.subRight (1 : Fin m)).sum_comp]
  refine Finset.sum_congr rfl fun i _ => ?_
  simp [det2E]
  ring

/-- A rounded sum of terms with absolute errors. -/
theorem sumL_error (h : StdRounding u fl) {m : ℕ} (t t' M : Fin m → ℝ) {k : ℝ} (hk : 0 ≤ k)
    (ht : ∀ i, |t i| ≤ M i) (he : ∀ i, |t' i - t i| ≤ (Real.exp (k * eps u) - 1) * M i) :
    |@sumL ℝ (rounded fl) (List.ofFn t') - ∑ i, t i| ≤ (Real.exp ((k + m) * eps u) - 1) * ∑ i, M i := by
  have hε := h.eps_nonneg
  have h1 := h.sumL_abs le_rfl (List.forall₂_same.mpr fun x (_ : x ∈ List.ofFn t') => RP.refl (eps u) x)
  simp only [List.length_ofFn, List.sum_ofFn, List.map_ofFn, Function.comp_def, zero_add] at h1
  obtain ⟨A, hA⟩ : ∃ A, A = Real.exp (k * eps u) := ⟨_, rfl⟩
  obtain ⟨B, hB⟩ : ∃ B, B = Real.exp (m * eps u) := ⟨_, rfl⟩
  have hAB : Real.exp ((k + m) * eps u) = A * B := by rw [hA, hB, ← Real.exp_add]; congr 1; ring
  have hB1 : 1 ≤ B := by rw [hB]; exact Real.one_le_exp (by positivity)
  rw [hAB]
  rw [← hB] at h1
  rw [← hA] at he
  have h2 : |∑ i, t' i - ∑ i, t i| ≤ (A - 1) * ∑ i, M i := by
    rw [← Finset.sum_sub_distrib, Finset.mul_sum]
    exact (Finset.abs_sum_le_sum_abs _ _).trans (Finset.sum_le_sum fun i _ => he i)
  have h3 : ∑ i, |t' i| ≤ A * ∑ i, M i := by
    rw [Finset.mul_sum]
    refine Finset.sum_le_sum fun i _ => ?_
    have := abs_sub_abs_le_abs_sub (t' i) (t i)
    have := ht i
    have := he i
    linarith
  calc |@sumL ℝ (rounded fl) (List.ofFn t') - ∑ i, t i|
      = |(@sumL ℝ (rounded fl) (List.ofFn t') - ∑ i, t' i) + (∑ i, t' i - ∑ i, t i)| := by ring_nf
    _ ≤ _ := abs_add_le _ _
    _ ≤ (B - 1) * (A * ∑ i, M i) + (A - 1) * ∑ i, M i :=
        add_le_add (h1.trans (mul_le_mul_of_nonneg_left h3 (by linarith))) h2
    _ = _ := by ring

/-- C91: `area_signed` of a polygon with `m` vertices `(x_i, y_i)` under rounding is within
`((1-u)^(-(m+4)) - 1) · ½ Σ (|x_(i-1) y_i| + |x_i y_(i-1)|)` of the exact signed area. -/
theorem C91_area_signed {m : ℕ} [NeZero m] (hm : 3 ≤ m) (h : StdRounding u fl) (v : Fin m → E 2) :
    ∃ s', @Measurement.areaSigned ℝ (rounded fl) (rows (List.ofFn v)) = .ok s' ∧
      |s' - shoelace v| ≤ (((1 - u) ^ (m + 4))⁻¹ - 1) *
        (1 / 2 * ∑ i, (|v (i - 1) 0 * v i 1| + |v i 0 * v (i - 1) 1|)) := by
  have hε := h.eps_nonneg
  refine ⟨_, areaSigned_ofFn_rd hm v, ?_⟩
  have hsh : shoelace v = 1 / 2 * ∑ i : Fin m, (v (i - 1) 0 * v i 1 - v i 0 * v (i - 1) 1) := by
    have := C67_shoelace hm v
    rw [areaSigned_ofFn hm v] at this
    exact (Except.ok.inj this).symm
  rw [hsh]
  have e1 := sumL_error h (fun i : Fin m => v (i - 1) 0 * v i 1 - v i 0 * v (i - 1) 1)
    (fun i : Fin m => fl (fl (v (i - 1) 0 * v i 1) - fl (v i 0 * v (i - 1) 1)))
    (fun i : Fin m => |v (i - 1) 0 * v i 1| + |v i 0 * v (i - 1) 1|) (k := 1 + 1) (by norm_num)
    (fun i => abs_sub _ _) (fun i => diff_error_signed h (by norm_num) (h.rp _) (h.rp _))
  obtain ⟨S, hS⟩ : ∃ S, S = @sumL ℝ (rounded fl)
    (List.ofFn fun i : Fin m => fl (fl (v (i - 1) 0 * v i 1) - fl (v i 0 * v (i - 1) 1))) := ⟨_, rfl⟩
  rw [← hS] at e1 ⊢
  have e2 := (h.step ((h.rp (1 / 2)).mul (RP.refl (eps u) S))).abs_sub_le
  rw [abs_mul (1 / 2 : ℝ), abs_of_nonneg (by norm_num : (0 : ℝ) ≤ 1 / 2)] at e2
  have := chain_error (A := Real.exp ((1 + 1 + m) * eps u)) (B := Real.exp ((1 + 0 + 1) * eps u))
    (Real.one_le_exp (by positivity)) (Real.one_le_exp (by positivity)) le_rfl
    (by norm_num : (0 : ℝ) ≤ 1 / 2) (by rw [one_mul]; exact e1)
    ((Finset.abs_sum_le_sum_abs _ _).trans (Finset.sum_le_sum fun i _ => abs_sub _ _)) e2
  rw [← Real.exp_add, ← add_mul, h.exp_eps, show (1 + 1 + m + (1 + 0 + 1) : ℝ) = ((m + 4 : ℕ) : ℝ) by
    push_cast; ring, Real.rpow_natCast, one_mul] at this
  exact this


/-- C91: every coordinate of `points.centroid()` of `N` points under rounding is within `(1-u)^(-(N+1)) - 1` times the
mean of the absolute values of that coordinate of the exact centroid. -/
theorem C91_centroid [NeZero n] (h : StdRounding u fl) {P : List (E n)} (hP : P ≠ []) :
    ∃ c' : E n, @Pts.centroid ℝ (rounded fl) (rows P) = .ok (arr c') ∧
      ∀ j, |c' j - ((P.length : ℝ)⁻¹ • P.sum) j| ≤
        (((1 - u) ^ (P.length + 1))⁻¹ - 1) * ((P.map fun x => |x j|).sum / P.length) := by
  have hε := h.eps_nonneg
  have hN : (0 : ℝ) < P.length := by rw [Nat.cast_pos]; exact List.length_pos_iff.mpr hP
  refine ⟨WithLp.toLp 2 fun j => fl (@sumL ℝ (rounded fl) (P.map fun x => x j) / P.length), ?_, fun j => ?_⟩
  · have hc : @Pts.colMeans ℝ (rounded fl) (rows P) =
        arr (WithLp.toLp 2 fun j => fl (@sumL ℝ (rounded fl) (P.map fun x => x j) / P.length) : E n) := by
      apply List.ext_getElem
      · simp [Pts.colMeans, rowDim_rows hP]
      · intro j h1 h2
        have hj : j < n := by simpa using h2
        have := column_rd (fl := fl) P ⟨j, hj⟩
        simp only [Pts.colMeans, List.getElem_map, List.getElem_range, arr, List.getElem_ofFn]
        simp only at this
        rw [@toFloats_rd fl, this, div_rd, ofInt_rd]
        simp [rows]
    simp only [Pts.centroid, hc, new1D_rd]
  · have h1 := h.sumL_abs le_rfl (List.forall₂_same.mpr fun x (_ : x ∈ P.map fun x => x j) => RP.refl (eps u) x)
    simp only [List.length_map, List.map_map, Function.comp_def, zero_add] at h1
    have h2 := quot_error h (k := P.length) (j := 0) (M := (P.map fun x => |x j|).sum) (by positivity) le_rfl hN (by
      clear hP hN h1
      induction P with
      | nil => simp
      | cons a l ih => simp only [List.map_cons, List.sum_cons]; exact (abs_add_le _ _).trans (by linarith)) h1 (RP.refl (eps u) (P.length : ℝ))
    rw [h.exp_eps, show ((P.length : ℝ) + 0 + 1) = ((P.length + 1 : ℕ) : ℝ) by push_cast; ring, Real.rpow_natCast] at h2
    have h3 : ((P.length : ℝ)⁻¹ • P.sum) j = (P.map fun x => x j).sum / P.length := by
      simp [sum_apply, div_eq_inv_mul]
    rw [h3]
    exact h2

/-- C92: `triangle.perimeter()` under rounding has a relative error of at most `(1-u)^(-(n+11)/2) - 1`. -/
theorem C92_perimeter [NeZero n] (h : StdRounding u fl) (hu : u ≤ 1 / 2) {ext : NumpyExt ℝ} {a b c : E n}
    {T : Triangle ℝ} (hT : @Triangle.new ℝ (rounded fl) ext (arr a) (arr b) (arr c) = .ok T)
    (hab : a ≠ b) (hbc : b ≠ c) (hca : c ≠ a) :
    ∃ s, @Triangle.perimeter ℝ (rounded fl) T = .ok s ∧
      ApproxRel u ((n + 11) / 2) s (dist a b + dist b c + dist c a) := by
  obtain rfl := triangle_new_rd hT
  obtain ⟨x, y, z, hl, hx, hy, hz⟩ := lengths_rp h hu hab hbc hca
  refine ⟨_, by simp only [Triangle.perimeter, hl, ok_bind, pure_ok]; rfl, ?_⟩
  have := h.sumL_rp (k := (n + 5) / 2) (by positivity) (l := [x, y, z]) (l' := [dist b c, dist c a, dist a b])
    (.cons hx (.cons hy (.cons hz .nil))) (by simp [dist_nonneg])
  have e : ((n + 5) / 2 + ([x, y, z].length : ℝ)) = (n + 11) / 2 := by norm_num; ring
  rw [e, show [dist b c, dist c a, dist a b].sum = dist a b + dist b c + dist c a by simp; ring] at this
  exact h.approxRel this (by positivity)

/-- C92: circumference and area of a circle of radius `r` under rounding: 3 relative errors each. -/
theorem C92_circle (h : StdRounding u fl) {c : E n} {r : ℝ} {C : Circle ℝ}
    (hC : @Circle.new ℝ (rounded fl) (arr c) r = .ok C) :
    ApproxRel u 3 (@Circle.circumference ℝ (rounded fl) C) (2 * Real.pi * r) ∧
    ApproxRel u 3 (@Circle.area ℝ (rounded fl) C) (Real.pi * r ^ 2) := by
  have hpi := Real.pi_pos
  obtain ⟨hr, rfl⟩ := circle_new_rd hC
  constructor
  · have := h.step ((h.step ((RP.refl (eps u) 2).mul (h.rp Real.pi))).mul (RP.refl (eps u) r))
    rw [show (0 + 1 + 1 + 0 + 1 : ℝ) = 3 by norm_num] at this
    have e : @Circle.circumference ℝ (rounded fl) ⟨arr c, r⟩ = fl (fl (2 * fl Real.pi) * r) := by
      simp only [Circle.circumference, mul_rd, two_rd]; rfl
    rw [e]
    exact h.approxRel this (by positivity)
  · have := h.step ((h.rp Real.pi).mul (h.rp (r * r)))
    rw [show (1 + 1 + 1 : ℝ) = 3 by norm_num, ← pow_two] at this
    have e : @Circle.area ℝ (rounded fl) ⟨arr c, r⟩ = fl (fl Real.pi * fl (r ^ 2)) := by
      simp only [Circle.area, mul_rd, sq_rd, pow_two]; rfl
    rw [e]
    exact h.approxRel this (by positivity)

/-- C92: surface area (4 relative errors) and volume (6 relative errors) of a sphere of radius `r` under rounding. -/
theorem C92_sphere (h : StdRounding u fl) {c : E n} {r : ℝ} {S : Sphere ℝ}
    (hS : @Sphere.new ℝ (rounded fl) (arr c) r = .ok S) :
    ApproxRel u 4 (@Sphere.surfaceArea ℝ (rounded fl) S) (4 * Real.pi * r ^ 2) ∧
    ApproxRel u 6 (@Sphere.volume ℝ (rounded fl) S) (4 / 3 * Real.pi * r ^ 3) := by
  have hpi := Real.pi_pos
  obtain ⟨hr, rfl⟩ := sphere_new_rd hS
  constructor
  · have := h.step ((h.step ((RP.refl (eps u) 4).mul (h.rp Real.pi))).mul (h.rp (r * r)))
    rw [show (0 + 1 + 1 + 1 + 1 : ℝ) = 4 by norm_num, ← pow_two] at this
    have e : @Sphere.surfaceArea ℝ (rounded fl) ⟨arr c, r⟩ = fl (fl (4 * fl Real.pi) * fl (r ^ 2)) := by
      simp only [Sphere.surfaceArea, mul_rd, sq_rd, pow_two, ofInt_rd]; norm_num; rfl
    rw [e]
    exact h.approxRel this (by positivity)
  · have := h.step ((h.step ((h.rp (4 / 3)).mul (h.rp Real.pi))).mul
      (h.step ((h.rp (r * r)).mul (RP.refl (eps u) r))))
    rw [show (1 + 1 + 1 + (1 + 0 + 1) + 1 : ℝ) = 6 by norm_num, show r * r * r = r ^ 3 by ring] at this
    have e : @Sphere.volume ℝ (rounded fl) ⟨arr c, r⟩ = fl (fl (fl (4 / 3) * fl Real.pi) * fl (fl (r * r) * r)) := by
      simp only [Sphere.volume, mul_rd, div_rd, cube, ofInt_rd]; norm_num; rfl
    rw [e]
    exact h.approxRel this (by positivity)

theorem cylinder_new_rd {p v : E 3} {r : ℝ} {C : Cylinder ℝ} (h : StdRounding u fl) (hu : u ≤ 1 / 2)
    (hC : @Cylinder.new ℝ (rounded fl) (arr p) (arr v) r = .ok C) : v ≠ 0 ∧ 0 < r ∧ C = ⟨arr p, arr v, r⟩ := by
  classical
  simp only [Cylinder.new, new1D_rd, ok_bind, length_arr, C73_is_zero h hu, lt_rd, zero_rd] at hC
  by_cases hv : v = 0
  · simp [hv] at hC
  by_cases hr : 0 < r
  · simp [hv, hr] at hC
    exact ⟨hv, hr, hC.symm⟩
  · simp [hv, hr] at hC

/-- C92: length, lateral surface area, surface area and volume of a cylinder with axis vector `v` and radius `r` under
rounding: at most 3, 7, 8 and 7 relative errors. -/
theorem C92_cylinder (h : StdRounding u fl) (hu : u ≤ 1 / 2) {p v : E 3} {r : ℝ} {C : Cylinder ℝ}
    (hC : @Cylinder.new ℝ (rounded fl) (arr p) (arr v) r = .ok C) :
    ApproxRel u 3 (@Cylinder.length ℝ (rounded fl) C) ‖v‖ ∧
    ApproxRel u 7 (@Cylinder.lateralSurfaceArea ℝ (rounded fl) C) (2 * Real.pi * r * ‖v‖) ∧
    ApproxRel u 8 (@Cylinder.surfaceArea ℝ (rounded fl) C) (2 * Real.pi * r * ‖v‖ + 2 * Real.pi * r ^ 2) ∧
    ApproxRel u 7 (@Cylinder.volume ℝ (rounded fl) C) (Real.pi * r ^ 2 * ‖v‖) := by
  have hpi := Real.pi_pos
  have hε := h.eps_nonneg
  obtain ⟨hv, hr, rfl⟩ := cylinder_new_rd h hu hC
  have hl := h.normv_rp le_rfl (CRP.refl (eps u) v)
  rw [show (0 + ((3 : ℕ) + 3) / 2 : ℝ) = 3 by norm_num] at hl
  have h1 := h.step ((h.step ((h.step ((RP.refl (eps u) 2).mul (h.rp Real.pi))).mul (RP.refl (eps u) r))).mul hl)
  rw [show (0 + 1 + 1 + 0 + 1 + 3 + 1 : ℝ) = 7 by norm_num] at h1
  have h2 := h.step ((h.step ((RP.refl (eps u) 2).mul (h.rp Real.pi))).mul (h.rp (r * r)))
  have h3 := h.step (RP.add (by positivity) h1 (h2.mono hε (by norm_num : (0 + 1 + 1 + 1 + 1 : ℝ) ≤ 7))
    (by positivity) (by positivity))
  have h4 := h.step ((h.step ((h.rp Real.pi).mul (h.rp (r * r)))).mul hl)
  have e1 : @Cylinder.lateralSurfaceArea ℝ (rounded fl) ⟨arr p, arr v, r⟩ =
      fl (fl (fl (2 * fl Real.pi) * r) * @normv ℝ (rounded fl) (arr v)) := by
    simp only [Cylinder.lateralSurfaceArea, Cylinder.length, Vec.norm, mul_rd, two_rd]; rfl
  rw [show (1 + 1 + 1 + 3 + 1 : ℝ) = 7 by norm_num, ← pow_two] at h4
  rw [show (7 + 1 : ℝ) = 8 by norm_num] at h3
  refine ⟨h.approxRel hl (by positivity), ?_, ?_, ?_⟩
  · rw [e1]; exact h.approxRel h1 (by positivity)
  · have e : @Cylinder.surfaceArea ℝ (rounded fl) ⟨arr p, arr v, r⟩ =
        fl (fl (fl (fl (2 * fl Real.pi) * r) * @normv ℝ (rounded fl) (arr v)) + fl (fl (2 * fl Real.pi) * fl (r * r))) := by
      rw [← e1]
      simp only [Cylinder.surfaceArea, mul_rd, two_rd, add_rd, sq_rd]; rfl
    rw [e, pow_two]
    exact h.approxRel h3 (by positivity)
  · have e : @Cylinder.volume ℝ (rounded fl) ⟨arr p, arr v, r⟩ =
        fl (fl (fl Real.pi * fl (r ^ 2)) * @normv ℝ (rounded fl) (arr v)) := by
      simp only [Cylinder.volume, Cylinder.length, Vec.norm, mul_rd, sq_rd, pow_two]; rfl
    rw [e]
    exact h.approxRel h4 (by positivity)

/-- C79: `line.contains_point(x, rel_tol=t, abs_tol=s)` under rounding.  With
`b = ((1-u)^(-1) - 1) ‖p‖ + ((1-u)^(-(2n+6)) - 1) dist x p` it is `True` for every point whose exact distance `d` from the
line satisfies `(1+u) (1-u)^(-(n+5)/2) (d + b) ≤ s`, and `True` only if `(1-u) (1-u)^((n+5)/2) (d - b) ≤ s`. -/
theorem C79_line_contains [NeZero n] (h : StdRounding u fl) (hu : u ≤ 1 / 4) (p v x : E n) (hv : v ≠ 0)
    {t s : ℝ} (ht : 0 ≤ t) (ht1 : t ≤ 1 / 4) (hs : 0 ≤ s) :
    ∃ b, @Line.containsPoint ℝ (rounded fl) ⟨t, s⟩ ⟨arr p, arr v⟩ (arr x) = .ok b ∧
      ((1 + u) * (((1 - u) ^ ((n + 5) / 2 : ℝ))⁻¹ * (dist x (foot p v x) +
        (((1 - u)⁻¹ - 1) * ‖p‖ + (((1 - u) ^ (2 * n + 6))⁻¹ - 1) * dist x p))) ≤ s → b = true) ∧
      (b = true → (1 - u) * ((1 - u) ^ ((n + 5) / 2 : ℝ) * (dist x (foot p v x) -
        (((1 - u)⁻¹ - 1) * ‖p‖ + (((1 - u) ^ (2 * n + 6))⁻¹ - 1) * dist x p))) ≤ s) := by
  have hu0 := h.nonneg
  obtain ⟨d, e, hd, ⟨a1, a2⟩, he⟩ := C78_line_distance h p v x hv
  obtain ⟨b, hb, h1, h2⟩ := isclose_zero_abs_rd h hu (d := d) ht ht1 hs
  have he' := abs_le.mp he
  have hpos : 0 < (1 - u) ^ ((n + 5) / 2 : ℝ) := Real.rpow_pos_of_pos (by linarith) _
  obtain ⟨B, hB⟩ : ∃ B, B = ((1 - u)⁻¹ - 1) * ‖p‖ + (((1 - u) ^ (2 * n + 6))⁻¹ - 1) * dist x p := ⟨_, rfl⟩
  obtain ⟨D, hD⟩ : ∃ D, D = dist x (foot p v x) := ⟨_, rfl⟩
  obtain ⟨q, hq⟩ : ∃ q, q = (1 - u) ^ ((n + 5) / 2 : ℝ) := ⟨_, rfl⟩
  rw [← hB, ← hD] at he' ⊢
  rw [← hq] at a1 a2 hpos ⊢
  have hd0 : 0 ≤ d := by
    have hl : ∀ y : E n, 0 ≤ dist x y := fun _ => dist_nonneg
    -- a distance is non-negative: it is a rounded square root
    obtain ⟨qq, g1, -⟩ := C78_line_project h p v x hv
    obtain ⟨dd, g2, g3⟩ := distancePoint_rp h qq x
    have : d = dd := by
      simp only [Line.distancePoint, wrapped_rd, g1, ok_bind, g2, Except.ok.injEq] at hd
      exact hd.symm
    rw [this]; exact g3.nonneg dist_nonneg
  rw [abs_of_nonneg hd0] at h1 h2
  refine ⟨b, by simp only [Line.containsPoint, containsPointFn, hd, ok_bind, hb], fun hc => h1 ?_, fun hc => ?_⟩
  · have : d ≤ q⁻¹ * (D + B) := by
      rw [inv_mul_eq_div, le_div_iff₀ hpos]; linarith
    exact (mul_le_mul_of_nonneg_left this (by linarith)).trans hc
  · have : q * (D - B) ≤ d := (mul_le_mul_of_nonneg_left (by linarith) hpos.le).trans a1
    exact (mul_le_mul_of_nonneg_left this (by linarith)).trans (h2 hc)

/-! ### Concrete instances of the hypotheses, in binary64 -/

theorem std53 : StdRounding ((2 : ℝ) ^ (-(53 : ℕ) : ℤ)) (leftToRight (roundNearest 53)) := roundNearest_std (p := 53) (by norm_num)

theorem vec2_ne : vec2 1 (1 / 10) ≠ 0 := by
  intro h; have := congrArg (fun x : E 2 => x 0) h; simp [vec2] at this

/-- C76: normalising (1, 0.1). -/
example : ∃ z : E 2, @Vec.unit ℝ (rounded (leftToRight (roundNearest 53))) (arr (vec2 1 (1 / 10))) = .ok (arr z) := by
  obtain ⟨z, hz, -⟩ := (C76_unit_error std53 (vec2 1 (1 / 10))).2 vec2_ne
  exact ⟨z, hz⟩

/-- C78: the point (2, 3) is on the positive side of the line through (0.1, 0.2) with normal (1, 0.1). -/
example : @Plane.sidePoint ℝ (rounded (leftToRight (roundNearest 53))) ⟨arr (vec2 (1 / 10) (1 / 5)), arr (vec2 1 (1 / 10))⟩
    (arr (vec2 2 3)) = .ok 1 := by
  obtain ⟨s, -, -, -, h⟩ := C78_plane_distance std53 (vec2 (1 / 10) (1 / 5)) (vec2 1 (1 / 10)) (vec2 2 3) vec2_ne
  have hi : (inner ℝ (vec2 2 3 - vec2 (1 / 10) (1 / 5)) (vec2 1 (1 / 10)) : ℝ) = 109 / 50 := by
    rw [inner2]; simp [vec2]; norm_num
  have hn0 : 0 < ‖vec2 1 (1 / 10)‖ := norm_pos_iff.mpr vec2_ne
  have hn1 : ‖vec2 1 (1 / 10)‖ ≤ 2 := by
    apply le_of_sq_le_sq _ (by norm_num); rw [norm_sq2]; simp [vec2]; norm_num
  have hsd : 1 ≤ signedDist (vec2 (1 / 10) (1 / 5)) (vec2 1 (1 / 10)) (vec2 2 3) := by
    rw [signedDist, hi, le_div_iff₀ hn0]; linarith
  have hdist : dist (vec2 2 3) (vec2 (1 / 10) (1 / 5)) ≤ 4 := by
    rw [dist_eq_norm]; apply le_of_sq_le_sq _ (by norm_num); rw [norm_sq2]; simp [vec2]; norm_num
  rw [h, if_pos (by linarith)]
  rw [abs_of_pos (by linarith)]
  have hb : (((1 - (2 : ℝ) ^ (-(53 : ℕ) : ℤ)) ^ ((3 * (2 : ℕ) + 9) / 2 : ℝ))⁻¹ - 1) ≤ 1 / 8 := by
    rw [← std53.exp_eps]
    have := exp_eps_le2 std53 (k := (3 * (2 : ℕ) + 9) / 2) (by norm_num) (by norm_num)
    refine this.trans (by norm_num)
  have h0 : (0 : ℝ) ≤ dist (vec2 2 3) (vec2 (1 / 10) (1 / 5)) := dist_nonneg
  nlinarith

/-- C92: a circle and a cylinder are accepted. -/
example : (∃ C, @Circle.new ℝ (rounded (leftToRight (roundNearest 53))) (arr (vec2 1 2)) (1 / 10) = .ok C) ∧
    (∃ C, @Sphere.new ℝ (rounded (leftToRight (roundNearest 53))) (arr (vec3 1 2 3)) (1 / 10) = .ok C) ∧
    ∃ C, @Cylinder.new ℝ (rounded (leftToRight (roundNearest 53))) (arr (vec3 1 2 3)) (arr (vec3 0 0 1)) (1 / 10) = .ok C := by
  classical
  refine ⟨⟨⟨arr (vec2 1 2), 1 / 10⟩, ?_⟩, ⟨⟨arr (vec3 1 2 3), 1 / 10⟩, ?_⟩, ⟨⟨arr (vec3 1 2 3), arr (vec3 0 0 1), 1 / 10⟩, ?_⟩⟩
  · simp [Circle.new, newBaseSphere, le_rd, zero_rd, new1D_rd, show ¬ (10 : ℝ) ≤ 0 by norm_num]
  · simp [Sphere.new, newBaseSphere, le_rd, zero_rd, new1D_rd, show ¬ (10 : ℝ) ≤ 0 by norm_num]
  · have hv : vec3 0 0 1 ≠ 0 := by
      intro h; have := congrArg (fun x : E 3 => x 2) h; simp [vec3] at this
    simp [Cylinder.new, new1D_rd, C73_is_zero std53 (by norm_num), hv, lt_rd, zero_rd]

/-- C92: the perimeter of the 3-4-5 triangle. -/
example : ∃ T, @Triangle.new ℝ (rounded (leftToRight (roundNearest 53))) rankTwo (arr (vec2 0 0)) (arr (vec2 3 0))
      (arr (vec2 0 4)) = .ok T ∧ ∃ s, @Triangle.perimeter ℝ (rounded (leftToRight (roundNearest 53))) T = .ok s := by
  obtain ⟨T, hT⟩ := triangle_345 (leftToRight (roundNearest 53))
  have d1 : dist (vec2 0 0) (vec2 3 0) = 3 := dist_vec2_of (by norm_num) (by norm_num)
  have d2 : dist (vec2 3 0) (vec2 0 4) = 5 := dist_vec2_of (by norm_num) (by norm_num)
  have d3 : dist (vec2 0 4) (vec2 0 0) = 4 := dist_vec2_of (by norm_num) (by norm_num)
  have hd : ∀ {x y : E 2} {r : ℝ}, dist x y = r → 0 < r → x ≠ y := fun hd hr => dist_pos.mp (hd ▸ hr)
  obtain ⟨s, hs, -⟩ := C92_perimeter std53 (by norm_num) hT (hd d1 (by norm_num)) (hd d2 (by norm_num)) (hd d3 (by norm_num))
  exact ⟨T, hT, s, hs⟩

/-- C79: the point (2, 0.2) of the line through the origin along (1, 0.1) is accepted with `abs_tol=1e-12`. -/
example : @Line.containsPoint ℝ (rounded (leftToRight (roundNearest 53))) ⟨0, 1 / 10 ^ 12⟩ ⟨arr (vec2 0 0), arr (vec2 1 (1 / 10))⟩
    (arr (vec2 2 (1 / 5))) = .ok true := by
  obtain ⟨b, hb, h1, -⟩ := C79_line_contains std53 (by norm_num) (vec2 0 0) (vec2 1 (1 / 10)) (vec2 2 (1 / 5)) vec2_ne
    (t := 0) (s := 1 / 10 ^ 12) le_rfl (by norm_num) (by norm_num)
  rw [hb, h1]
  have hf : foot (vec2 0 0) (vec2 1 (1 / 10)) (vec2 2 (1 / 5)) = vec2 2 (1 / 5) := by
    rw [foot, inner2, norm_sq2]
    ext i; fin_cases i <;> simp [vec2] <;> norm_num
  have hz : ‖vec2 0 0‖ = 0 := by
    rw [norm_eq_zero]; ext i; fin_cases i <;> simp [vec2]
  have hdist : dist (vec2 2 (1 / 5)) (vec2 0 0) ≤ 3 := by
    rw [dist_eq_norm]; apply le_of_sq_le_sq _ (by norm_num); rw [norm_sq2]; simp [vec2]; norm_num
  have h0 : 0 ≤ dist (vec2 2 (1 / 5)) (vec2 0 0) := dist_nonneg
  rw [hf, dist_self, hz, mul_zero, zero_add, zero_add]
  have hb1 : ((1 - (2 : ℝ) ^ (-(53 : ℕ) : ℤ)) ^ (((2 : ℕ) + 5) / 2 : ℝ))⁻¹ ≤ 2 := by
    rw [← std53.exp_eps]
    have := exp_eps_le2 std53 (k := ((2 : ℕ) + 5) / 2) (by norm_num) (by norm_num)
    have h2 : 2 * ((((2 : ℕ) : ℝ) + 5) / 2) * (2 : ℝ) ^ (-(53 : ℕ) : ℤ) ≤ 1 := by norm_num
    linarith
  have hb2 : ((1 - (2 : ℝ) ^ (-(53 : ℕ) : ℤ)) ^ (2 * 2 + 6))⁻¹ - 1 ≤ 1 / 10 ^ 14 := by norm_num
  have hb3 : 0 ≤ ((1 - (2 : ℝ) ^ (-(53 : ℕ) : ℤ)) ^ (2 * 2 + 6))⁻¹ - 1 := by norm_num
  have hu : (1 + (2 : ℝ) ^ (-(53 : ℕ) : ℤ)) ≤ 2 := by norm_num
  have hq0 : 0 ≤ ((1 - (2 : ℝ) ^ (-(53 : ℕ) : ℤ)) ^ (((2 : ℕ) + 5) / 2 : ℝ))⁻¹ :=
    inv_nonneg.mpr (Real.rpow_nonneg (by norm_num) _)
  calc _ ≤ (2 : ℝ) * (2 * (1 / 10 ^ 14 * 3)) := by
        refine mul_le_mul hu (mul_le_mul hb1 (mul_le_mul hb2 hdist h0 (by norm_num)) (mul_nonneg hb3 h0) (by norm_num))
          (mul_nonneg hq0 (mul_nonneg hb3 h0)) (by norm_num)
    _ ≤ _ := by norm_num

end SkSpatial
