import Verif.Props.Plane
import Verif.Lemmas.Rank
import Mathlib.LinearAlgebra.AffineSpace.FiniteDimensional
/-! # C31, C40: best-fit lines and planes

Given the contract of `np.linalg.svd` and `np.linalg.matrix_rank` (`LawfulNumpy`). -/

namespace SkSpatial
open Finset

variable {n : ℕ}

theorem sum_map_get {α : Type} (A : List α) (f : α → ℝ) : (A.map f).sum = ∑ i : Fin A.length, f (A.get i) := by
  rw [← List.sum_ofFn]
  congr 1
  rw [← Function.comp_def f, List.map_ofFn.symm, List.ofFn_get]

theorem list_sum_sub (P : List (E n)) (c : E n) : (P.map fun x => x - c).sum = P.sum - (P.length : ℝ) • c := by
  induction P with
  | nil => simp
  | cons x P ih =>
    simp only [List.map_cons, List.sum_cons, List.length_cons, ih]
    push_cast
    rw [add_smul, one_smul]; abel

theorem sum_centered {P : List (E n)} (hP : P ≠ []) : (P.map fun x => x - centroidE P).sum = 0 := by
  have : (P.length : ℝ) ≠ 0 := by
    rw [Nat.cast_ne_zero]; simpa using hP
  rw [list_sum_sub, centroidE, smul_smul, mul_inv_cancel₀ this, one_smul, sub_self]

theorem sum_inner_list (P : List (E n)) (f : E n → E n) (d : E n) :
    (P.map fun x => (inner ℝ d (f x) : ℝ)).sum = inner ℝ d (P.map f).sum := by
  induction P with
  | nil => simp
  | cons x P ih => simp [ih, inner_add_right]

/-- Steiner: the second moment about `q` along a direction. -/
theorem steiner_inner {P : List (E n)} (hP : P ≠ []) (d q : E n) :
    (P.map fun x => (inner ℝ d (x - q) : ℝ) ^ 2).sum =
      (P.map fun x => (inner ℝ d (x - centroidE P) : ℝ) ^ 2).sum +
        P.length * (inner ℝ d (centroidE P - q) : ℝ) ^ 2 := by
  have h0 : (P.map fun x => (inner ℝ d (x - centroidE P) : ℝ)).sum = 0 := by
    rw [sum_inner_list P (fun x => x - centroidE P) d, sum_centered hP, inner_zero_right]
  set c := centroidE P
  have key : ∀ (Q : List (E n)), (Q.map fun x => (inner ℝ d (x - q) : ℝ) ^ 2).sum =
      (Q.map fun x => (inner ℝ d (x - c) : ℝ) ^ 2).sum + Q.length * (inner ℝ d (c - q) : ℝ) ^ 2 +
        2 * (inner ℝ d (c - q) : ℝ) * (Q.map fun x => (inner ℝ d (x - c) : ℝ)).sum := by
    intro Q
    induction Q with
    | nil => simp
    | cons x Q ih =>
      simp only [List.map_cons, List.sum_cons, List.length_cons, ih]
      push_cast
      rw [show x - q = (x - c) + (c - q) by abel, inner_add_right]
      ring
  rw [key P, h0]; ring

/-- Steiner: the second moment about `q`. -/
theorem steiner_norm {P : List (E n)} (hP : P ≠ []) (q : E n) :
    (P.map fun x => ‖x - q‖ ^ 2).sum =
      (P.map fun x => ‖x - centroidE P‖ ^ 2).sum + P.length * ‖centroidE P - q‖ ^ 2 := by
  have h0 : (P.map fun x => (inner ℝ (centroidE P - q) (x - centroidE P) : ℝ)).sum = 0 := by
    rw [sum_inner_list P (fun x => x - centroidE P) _, sum_centered hP, inner_zero_right]
  set c := centroidE P
  have key : ∀ (Q : List (E n)), (Q.map fun x => ‖x - q‖ ^ 2).sum =
      (Q.map fun x => ‖x - c‖ ^ 2).sum + Q.length * ‖c - q‖ ^ 2 +
        2 * (Q.map fun x => (inner ℝ (c - q) (x - c) : ℝ)).sum := by
    intro Q
    induction Q with
    | nil => simp
    | cons x Q ih =>
      simp only [List.map_cons, List.sum_cons, List.length_cons, ih]
      push_cast
      rw [show x - q = (c - q) + (x - c) by abel, norm_add_sq_real]
      ring
  rw [key P, h0]; ring

theorem dist_footE_sq (p : E n) {d : E n} (hd : d ≠ 0) (x : E n) :
    dist x (footE p d x) ^ 2 = ‖x - p‖ ^ 2 - (inner ℝ d (x - p) : ℝ) ^ 2 / ‖d‖ ^ 2 := by
  have h : ‖d‖ ≠ 0 := norm_ne_zero_iff.mpr hd
  have := footE_pyth p hd x 0
  rw [zero_smul, add_zero] at this
  have h2 : dist (footE p d x) p ^ 2 = (inner ℝ d (x - p) : ℝ) ^ 2 / ‖d‖ ^ 2 := by
    rw [dist_eq_norm, footE, add_sub_cancel_left, norm_smul, mul_pow, Real.norm_eq_abs, sq_abs]
    field_simp
  rw [dist_eq_norm x p] at this
  linarith

/-- The sum of squared distances of a line, about the centroid. -/
theorem line_sumSq {P : List (E n)} (hP : P ≠ []) (q : E n) {d : E n} (hd : d ≠ 0) :
    (P.map fun x => dist x (footE q d x) ^ 2).sum =
      (P.map fun x => ‖x - centroidE P‖ ^ 2).sum -
        (P.map fun x => (inner ℝ d (x - centroidE P) : ℝ) ^ 2).sum / ‖d‖ ^ 2 +
        P.length * (‖centroidE P - q‖ ^ 2 - (inner ℝ d (centroidE P - q) : ℝ) ^ 2 / ‖d‖ ^ 2) := by
  have h1 : (P.map fun x => dist x (footE q d x) ^ 2).sum =
      (P.map fun x => ‖x - q‖ ^ 2).sum - (P.map fun x => (inner ℝ d (x - q) : ℝ) ^ 2).sum / ‖d‖ ^ 2 := by
    have : ∀ Q : List (E n), (Q.map fun x => dist x (footE q d x) ^ 2).sum =
        (Q.map fun x => ‖x - q‖ ^ 2).sum - (Q.map fun x => (inner ℝ d (x - q) : ℝ) ^ 2).sum / ‖d‖ ^ 2 := by
      intro Q
      induction Q with
      | nil => simp
      | cons x Q ih =>
        rw [List.map_cons, List.sum_cons, ih, dist_footE_sq q hd, List.map_cons, List.sum_cons,
          List.map_cons, List.sum_cons]
        ring
    exact this P
  rw [h1, steiner_norm hP, steiner_inner hP]; ring

theorem plane_sumSq {P : List (E n)} (hP : P ≠ []) (q : E n) {m : E n} (hm : m ≠ 0) :
    (P.map fun x => dist x (pfootE q m x) ^ 2).sum =
      ((P.map fun x => (inner ℝ m (x - centroidE P) : ℝ) ^ 2).sum +
        P.length * (inner ℝ m (centroidE P - q) : ℝ) ^ 2) / ‖m‖ ^ 2 := by
  have h : ‖m‖ ≠ 0 := norm_ne_zero_iff.mpr hm
  have h1 : ∀ Q : List (E n), (Q.map fun x => dist x (pfootE q m x) ^ 2).sum =
      (Q.map fun x => (inner ℝ m (x - q) : ℝ) ^ 2).sum / ‖m‖ ^ 2 := by
    intro Q
    induction Q with
    | nil => simp
    | cons x Q ih =>
      rw [List.map_cons, List.sum_cons, ih, dist_pfootE q hm, sq_abs, List.map_cons, List.sum_cons]
      rw [psignedE, real_inner_smul_right, real_inner_comm]
      field_simp
  rw [h1, steiner_inner hP]

/-- The total second moment is the sum of the squared singular values. -/
theorem Dec.sum_norm_sq {A : List (E n)} {W : ℕ → E A.length} {σ : ℕ → ℝ} {V : ℕ → E n} (h : Dec A W σ V) :
    ∑ i : Fin A.length, ‖A.get i‖ ^ 2 = ∑ l ∈ range (min A.length n), σ l ^ 2 := by
  have e1 : ∀ x : E n, ‖x‖ ^ 2 = ∑ j : Fin n, (inner ℝ x (EuclideanSpace.single j 1) : ℝ) ^ 2 := by
    intro x
    rw [EuclideanSpace.norm_sq_eq]
    refine sum_congr rfl fun j _ => ?_
    simp [EuclideanSpace.inner_single_right]
  calc ∑ i : Fin A.length, ‖A.get i‖ ^ 2
      = ∑ j : Fin n, ∑ i : Fin A.length, (inner ℝ (A.get i) (EuclideanSpace.single j 1) : ℝ) ^ 2 := by
        rw [sum_comm]; exact sum_congr rfl fun i _ => e1 _
    _ = ∑ j : Fin n, ∑ l ∈ range (min A.length n),
          σ l ^ 2 * (inner ℝ (V l) (EuclideanSpace.single j 1) : ℝ) ^ 2 :=
        sum_congr rfl fun j _ => h.sum_inner_sq _
    _ = ∑ l ∈ range (min A.length n), σ l ^ 2 * ‖V l‖ ^ 2 := by
        rw [sum_comm]
        refine sum_congr rfl fun l _ => ?_
        rw [e1, mul_sum]
    _ = _ := by
        refine sum_congr rfl fun l hl => ?_
        have := h.inner_V (mem_range.mp hl) (mem_range.mp hl)
        rw [real_inner_self_eq_norm_sq] at this
        rw [this]; simp

theorem sumL_drop_range (k j : ℕ) (hj : j ≤ k) (σ : ℕ → ℝ) :
    sumL ((((List.range k).map σ).drop j).map sq) = ∑ l ∈ range k, σ l ^ 2 - ∑ l ∈ range j, σ l ^ 2 := by
  have hfull : ∀ m, ((List.range m).map fun l => σ l ^ 2).sum = ∑ l ∈ range m, σ l ^ 2 := by
    intro m
    induction m with
    | zero => simp
    | succ m ih => rw [List.range_succ, List.map_append, List.sum_append, ih, sum_range_succ]; simp
  have h1 : (((List.range k).map σ).drop j).map (fun x => x ^ 2) = ((List.range k).map fun l => σ l ^ 2).drop j := by
    rw [List.map_drop, List.map_map]; rfl
  have hsq : (sq : ℝ → ℝ) = fun x => x ^ 2 := by funext x; simp
  rw [sumL_real, hsq, h1]
  have h2 := List.sum_take_add_sum_drop ((List.range k).map fun l => σ l ^ 2) j
  have h3 : ((List.range k).map fun l => σ l ^ 2).take j = (List.range j).map fun l => σ l ^ 2 := by
    rw [← List.map_take, List.take_range, min_eq_left hj]
  rw [h3, hfull, hfull] at h2
  linarith

section
variable [NumpyExt ℝ] [LawfulNumpy]

/-- C31: `Line.best_fit`. -/
theorem C31_line_best_fit [NeZero n] {P : List (E n)} (hP : P ≠ []) (tol : Option ℝ)
    (htol : ∀ t, tol = some t → 0 ≤ t) (full : Bool) :
    (Pts.areConcurrent tol (rows P) = .ok true →
      ∃ msg, Line.bestFit (rows P) tol full = .error (.valueError msg)) ∧
    ((∃ c, ∀ x ∈ P, x = c) → ∃ msg, Line.bestFit (rows P) tol full = .error (.valueError msg)) ∧
    (Pts.areConcurrent tol (rows P) = .ok false → ∃ (L : Line ℝ) (err : ℝ) (c u : E n),
      Line.bestFit (rows P) tol full = .ok (L, err) ∧ Line.new (arr c) (arr u) = .ok L ∧
      Pts.centroid (rows P) = .ok (arr c) ∧ ‖u‖ = 1 ∧ L.sumSquares (rows P) = .ok err ∧
      ∀ (q d : E n) (M : Line ℝ) (r : ℝ), Line.new (arr q) (arr d) = .ok M →
        M.sumSquares (rows P) = .ok r → err ≤ r) := by
  have herr : Pts.areConcurrent tol (rows P) = .ok true →
      ∃ msg, Line.bestFit (rows P) tol full = .error (.valueError msg) := by
    intro h
    exact ⟨_, by simp [Line.bestFit, newPoints_rows hP, h]; rfl⟩
  refine ⟨herr, fun h => herr ?_, fun h => ?_⟩
  · obtain ⟨b, -, -, hb, -, -, hc, -⟩ := C22_predicates hP tol htol
    rw [hb, hc h]
  set A := P.map fun x => x - centroidE P with hA
  have hAne : A ≠ [] := by simpa [hA] using hP
  obtain ⟨W, σ, V, hdec, hVfull, h1, h2, h3⟩ := (LawfulNumpy.svd A full hAne (NeZero.ne n)).dec
  have hlen : 0 < A.length := List.length_pos_iff.mpr hAne
  have hk : 0 < min A.length n := by have := NeZero.pos n; omega
  set k := min A.length n with hkdef
  have hnorm : ‖V 0‖ = 1 := by
    have := hdec.inner_V hk hk
    rw [real_inner_self_eq_norm_sq] at this
    simp only [if_true] at this
    nlinarith [norm_nonneg (V 0)]
  have hV0 : V 0 ≠ 0 := by rw [← norm_ne_zero_iff, hnorm]; norm_num
  have hhead : (NumpyExt.svd full (rows A)).2.2.headD [] = arr (V 0) := by
    rw [h3]
    have : 0 < (if full then n else k) := by split <;> omega
    obtain ⟨j, hj⟩ := Nat.exists_eq_succ_of_ne_zero this.ne'
    rw [hj, List.range_succ_eq_map]; rfl
  have hval : Line.bestFit (rows P) tol full =
      .ok (⟨arr (centroidE P), arr (V 0)⟩, ∑ l ∈ range k, σ l ^ 2 - σ 0 ^ 2) := by
    simp only [Line.bestFit, newPoints_rows hP, ok_bind, h, meanCenter_rows hP, Bool.false_eq_true, if_false]
    rw [← hA, hhead, Line.new_arr _ hV0, h2, sumL_drop_range k 1 hk]
    simp
  have hmom : (P.map fun x => ‖x - centroidE P‖ ^ 2).sum = ∑ l ∈ range k, σ l ^ 2 := by
    rw [← hdec.sum_norm_sq, ← sum_map_get A (fun x => ‖x‖ ^ 2), hA, List.map_map]; rfl
  have hdir : ∀ d : E n, (P.map fun x => (inner ℝ d (x - centroidE P) : ℝ) ^ 2).sum =
      ∑ l ∈ range k, σ l ^ 2 * (inner ℝ (V l) d : ℝ) ^ 2 := by
    intro d
    rw [← hdec.sum_inner_sq, ← sum_map_get A (fun x => (inner ℝ x d : ℝ) ^ 2), hA, List.map_map]
    congr 2
    funext x
    simp [real_inner_comm]
  refine ⟨_, _, centroidE P, V 0, hval, Line.new_arr _ hV0, centroid_rows hP, hnorm, ?_, ?_⟩
  · rw [Line.sumSquares_arr _ _ hP, line_sumSq hP _ hV0, hmom, hdir, hnorm]
    congr 1
    have : ∑ l ∈ range k, σ l ^ 2 * (inner ℝ (V l) (V 0) : ℝ) ^ 2 = σ 0 ^ 2 := by
      rw [sum_eq_single 0]
      · rw [hdec.inner_V hk hk]; simp
      · intro l hl hl0
        rw [hdec.inner_V (mem_range.mp hl) hk, if_neg hl0]; simp
      · intro h0; exact absurd (mem_range.mpr hk) h0
    rw [this]; simp
  · intro q d M r hM hr
    obtain ⟨-, hd, rfl⟩ := Line.new_ok hM
    rw [Line.sumSquares_arr _ _ hP, Except.ok.injEq] at hr
    rw [← hr, line_sumSq hP _ hd, hmom, hdir]
    have hdn : 0 < ‖d‖ := norm_pos_iff.mpr hd
    have hb : ∑ l ∈ range k, σ l ^ 2 * (inner ℝ (V l) d : ℝ) ^ 2 ≤ σ 0 ^ 2 * ‖d‖ ^ 2 := by
      calc ∑ l ∈ range k, σ l ^ 2 * (inner ℝ (V l) d : ℝ) ^ 2
          ≤ ∑ l ∈ range k, σ 0 ^ 2 * (inner ℝ (V l) d : ℝ) ^ 2 := by
            apply sum_le_sum
            intro l _
            apply mul_le_mul_of_nonneg_right _ (sq_nonneg _)
            exact pow_le_pow_left₀ (hdec.nonneg l) (hdec.anti (Nat.zero_le l)) 2
        _ = σ 0 ^ 2 * ∑ l ∈ range k, (inner ℝ (V l) d : ℝ) ^ 2 := by rw [mul_sum]
        _ ≤ σ 0 ^ 2 * ‖d‖ ^ 2 := mul_le_mul_of_nonneg_left (hdec.bessel d) (sq_nonneg _)
    have hb' : (∑ l ∈ range k, σ l ^ 2 * (inner ℝ (V l) d : ℝ) ^ 2) / ‖d‖ ^ 2 ≤ σ 0 ^ 2 := by
      rw [div_le_iff₀ (by positivity)]; exact hb
    have hcs : 0 ≤ ‖centroidE P - q‖ ^ 2 - (inner ℝ d (centroidE P - q) : ℝ) ^ 2 / ‖d‖ ^ 2 := by
      rw [← dist_footE_sq q hd]; positivity
    have : 0 ≤ (P.length : ℝ) * (‖centroidE P - q‖ ^ 2 - (inner ℝ d (centroidE P - q) : ℝ) ^ 2 / ‖d‖ ^ 2) := by
      positivity
    linarith

/-- The rows of the transpose of an `N x 3` matrix. -/
noncomputable def transpose3 (A : List (E 3)) : List (E A.length) :=
  [WithLp.toLp 2 fun i => (A.get i) 0, WithLp.toLp 2 fun i => (A.get i) 1, WithLp.toLp 2 fun i => (A.get i) 2]

omit [NumpyExt ℝ] [LawfulNumpy] in
theorem transposeRows_rows {A : List (E 3)} (hA : A ≠ []) :
    transposeRows (rows A) = rows (transpose3 A) := by
  have hc : ∀ j : Fin 3, column (rows A) j = arr (WithLp.toLp 2 fun i : Fin A.length => (A.get i) j) := by
    intro j
    rw [column_rows, arr]
    conv_lhs => rw [← List.ofFn_get A, List.map_ofFn]
    rfl
  rw [transposeRows, rowDim_rows hA]
  have h0 := hc 0
  have h1 := hc 1
  have h2 := hc 2
  simp only [Fin.val_zero, Fin.val_one, Fin.val_two] at h0 h1 h2
  rw [show List.range 3 = [0, 1, 2] from rfl, List.map_cons, List.map_cons, List.map_cons, h0, h1, h2]
  rfl

omit [NumpyExt ℝ] [LawfulNumpy] in
/-- A singular value decomposition of the transpose is one of the matrix. -/
theorem dec_transpose {A : List (E 3)} {W : ℕ → E 3} {σ : ℕ → ℝ} {V : ℕ → E A.length}
    (h : Dec (transpose3 A) W σ V) : Dec A V σ W := by
  have hmin : min (transpose3 A).length A.length = min A.length 3 := by
    rw [min_comm]; rfl
  have hdec : ∀ j : Fin 3, ∀ i : Fin A.length, (A.get i) j =
      ∑ l ∈ range (min A.length 3), σ l * W l j * V l i := by
    intro j i
    have h1 : (transpose3 A).get (Fin.cast rfl j) = WithLp.toLp 2 fun i => (A.get i) j := by
      fin_cases j <;> rfl
    have h2 := h.dec (Fin.cast rfl j)
    rw [h1, hmin] at h2
    have h3 := congrFun (congrArg WithLp.ofLp h2) i
    simp only [WithLp.ofLp_sum, Finset.sum_apply, PiLp.smul_apply, smul_eq_mul] at h3
    exact h3
  refine ⟨?_, ?_, h.nonneg, h.anti, ?_⟩
  · have := h.hV; rwa [hmin] at this
  · have := h.hW; rwa [hmin] at this
  · intro i
    ext j
    rw [hdec j i]
    simp only [WithLp.ofLp_sum, Finset.sum_apply, PiLp.smul_apply, smul_eq_mul]
    refine sum_congr rfl fun l _ => ?_
    ring

/-- The decomposition `Plane.best_fit` uses, with the left singular vectors as vectors of space. -/
theorem svd_transpose (A : List (E 3)) (full : Bool) (hlen : 3 ≤ A.length) :
    ∃ (W : ℕ → E 3) (σ : ℕ → ℝ) (V : ℕ → E A.length), Dec A V σ W ∧
      rowDim (NumpyExt.svd full (rows (transpose3 A))).1 = 3 ∧
      column (NumpyExt.svd full (rows (transpose3 A))).1 2 = arr (W 2) ∧
      (NumpyExt.svd full (rows (transpose3 A))).2.1 = (List.range 3).map σ := by
  have hBne : transpose3 A ≠ [] := by simp [transpose3]
  obtain ⟨W, σ, V, hdec', -, h1, h2, -⟩ := (LawfulNumpy.svd (transpose3 A) full hBne (by omega)).dec
  have hmin' : min (transpose3 A).length A.length = 3 := by
    show min 3 A.length = 3; omega
  have h3 : (if full = true then (transpose3 A).length else 3) = 3 := by split <;> rfl
  refine ⟨W, σ, V, dec_transpose hdec', ?_, ?_, ?_⟩
  · rw [h1, hmin', h3]; rfl
  · rw [h1, hmin', h3]
    rw [column, List.map_ofFn]
    rfl
  · rw [h2, hmin']

/-- Points with an affine rank of two or more number at least three. -/
theorem three_le_of_not_collinear [NeZero n] {P : List (E n)} (hP : P ≠ []) {tol : Option ℝ}
    (htol : ∀ t, tol = some t → 0 ≤ t) (h : Pts.areCollinear tol (rows P) = .ok false) : 3 ≤ P.length := by
  obtain ⟨r, hr, hle⟩ := (C21_affine_rank_laws hP).1 tol htol
  rw [Pts.areCollinear, hr] at h
  simp at h
  have hrange : {x | x ∈ P} = Set.range P.get := by
    ext x; simp [List.mem_iff_get]
  have hpos := List.length_pos_iff.mpr hP
  obtain ⟨m, hm⟩ := Nat.exists_eq_succ_of_ne_zero hpos.ne'
  have := finrank_vectorSpan_range_le ℝ P.get (n := m) (by simp [hm])
  rw [hrange] at hle
  omega

/-- C40: `Plane.best_fit`. -/
theorem C40_plane_best_fit {P : List (E 3)} (hP : P ≠ []) (tol : Option ℝ)
    (htol : ∀ t, tol = some t → 0 ≤ t) (full : Bool) :
    (Pts.areCollinear tol (rows P) = .ok true →
      ∃ msg, Plane.bestFit (rows P) tol full = .error (.valueError msg)) ∧
    (Collinear ℝ {x | x ∈ P} → ∃ msg, Plane.bestFit (rows P) tol full = .error (.valueError msg)) ∧
    (Pts.areCollinear tol (rows P) = .ok false → ∃ (Q : Plane ℝ) (err : ℝ) (c m : E 3),
      Plane.bestFit (rows P) tol full = .ok (Q, err) ∧ Plane.new (arr c) (arr m) = .ok Q ∧
      Pts.centroid (rows P) = .ok (arr c) ∧ ‖m‖ = 1 ∧ Q.sumSquares (rows P) = .ok err ∧
      ∀ (q k : E 3) (R : Plane ℝ) (r : ℝ), Plane.new (arr q) (arr k) = .ok R →
        R.sumSquares (rows P) = .ok r → err ≤ r) := by
  have hd3 : rowDim (rows P) = 3 := rowDim_rows hP
  have herr : Pts.areCollinear tol (rows P) = .ok true →
      ∃ msg, Plane.bestFit (rows P) tol full = .error (.valueError msg) := by
    intro h
    exact ⟨_, by simp [Plane.bestFit, newPoints_rows hP, h, hd3]; rfl⟩
  refine ⟨herr, fun h => herr ?_, fun h => ?_⟩
  · obtain ⟨-, b, -, -, hb, -, -, hc, -⟩ := C22_predicates hP tol htol
    rw [hb, hc h]
  have h3le := three_le_of_not_collinear hP htol h
  set A := P.map fun x => x - centroidE P with hA
  have hAne : A ≠ [] := by simpa [hA] using hP
  have hlen : 3 ≤ A.length := by simpa [hA] using h3le
  obtain ⟨W, σ, V, hdec, hdim, hcol, h2⟩ := svd_transpose A full hlen
  have hmin : min A.length 3 = 3 := by omega
  have hWW : ∀ l m, l < 3 → m < 3 → (inner ℝ (W l) (W m) : ℝ) = if l = m then 1 else 0 := by
    intro l m hl hm
    exact hdec.inner_V (by omega) (by omega)
  have hnorm : ‖(W 2 : E 3)‖ = 1 := by
    have := hWW 2 2 (by norm_num) (by norm_num)
    rw [real_inner_self_eq_norm_sq] at this
    simp only [if_true] at this
    nlinarith [norm_nonneg (W 2)]
  have hW2 : (W 2 : E 3) ≠ 0 := by rw [← norm_ne_zero_iff, hnorm]; norm_num
  have hS : sumL (((NumpyExt.svd full (rows (transpose3 A))).2.1.drop 2).map sq) = σ 2 ^ 2 := by
    rw [h2, sumL_drop_range 3 2 (by norm_num)]
    simp [sum_range_succ]
  have hval : Plane.bestFit (rows P) tol full = .ok (⟨arr (centroidE P), arr (n := 3) (W 2)⟩, σ 2 ^ 2) := by
    simp only [Plane.bestFit, newPoints_rows hP, ok_bind, h, meanCenter_rows hP, Bool.false_eq_true, if_false,
      hd3, ne_eq, not_true_eq_false]
    rw [← hA, transposeRows_rows hAne, hdim, if_neg (by norm_num), hcol, hS, new1D_arr, ok_bind, Plane.new_arr _ hW2]
    rfl
  have hdir : ∀ d : E 3, (P.map fun x => (inner ℝ d (x - centroidE P) : ℝ) ^ 2).sum =
      ∑ l ∈ range 3, σ l ^ 2 * (inner ℝ (W l : E 3) d : ℝ) ^ 2 := by
    intro d
    have := hdec.sum_inner_sq d
    rw [hmin] at this
    rw [← this, ← sum_map_get A (fun x => (inner ℝ x d : ℝ) ^ 2), hA, List.map_map]
    congr 2
    funext x
    simp [real_inner_comm]
  -- Parseval for the three orthonormal vectors of space
  have hparseval : ∀ d : E 3, ∑ l ∈ range 3, (inner ℝ (W l : E 3) d : ℝ) ^ 2 = ‖d‖ ^ 2 := by
    intro d
    have hon : Orthonormal ℝ (fun l : Fin 3 => (W l : E 3)) := by
      have := hdec.hV; rwa [hmin] at this
    let b := basisOfOrthonormalOfCardEqFinrank hon (by simp)
    have hb : Orthonormal ℝ b := by
      rw [coe_basisOfOrthonormalOfCardEqFinrank]; exact hon
    have := (b.toOrthonormalBasis hb).sum_sq_norm_inner_right d
    rw [← this, ← Fin.sum_univ_eq_sum_range (fun l => (inner ℝ (W l : E 3) d : ℝ) ^ 2) 3]
    refine sum_congr rfl fun l _ => ?_
    simp [b, Real.norm_eq_abs, sq_abs]
  refine ⟨_, _, centroidE P, W 2, hval, Plane.new_arr _ hW2, centroid_rows hP, hnorm, ?_, ?_⟩
  · rw [Plane.sumSquares_arr _ hW2 hP, plane_sumSq hP _ hW2, hdir, hnorm]
    simp [sum_range_succ, hWW]
    rw [hnorm]; norm_num
  · intro q k R r hR hr
    obtain ⟨-, hk, rfl⟩ := Plane.new_ok hR
    rw [Plane.sumSquares_arr _ hk hP, Except.ok.injEq] at hr
    rw [← hr, plane_sumSq hP _ hk, hdir]
    have hkn : 0 < ‖k‖ := norm_pos_iff.mpr hk
    rw [le_div_iff₀ (by positivity), ← hparseval k, mul_sum]
    have : ∑ l ∈ range 3, σ 2 ^ 2 * (inner ℝ (W l : E 3) k : ℝ) ^ 2 ≤
        ∑ l ∈ range 3, σ l ^ 2 * (inner ℝ (W l : E 3) k : ℝ) ^ 2 := by
      apply sum_le_sum
      intro l hl
      apply mul_le_mul_of_nonneg_right _ (sq_nonneg _)
      exact pow_le_pow_left₀ (hdec.nonneg 2) (hdec.anti (by have := mem_range.mp hl; omega)) 2
    have h0 : 0 ≤ (P.length : ℝ) * (inner ℝ k (centroidE P - q) : ℝ) ^ 2 := by positivity
    linarith

omit [LawfulNumpy] in
/-- C40: the points must be 3D. -/
theorem C40_plane_best_fit_dimension [NeZero n] (hn : n ≠ 3) {P : List (E n)} (hP : P ≠ []) (tol : Option ℝ)
    (full : Bool) : ∃ msg, Plane.bestFit (rows P) tol full = .error (.valueError msg) :=
  ⟨_, by simp [Plane.bestFit, newPoints_rows hP, rowDim_rows hP, hn]; rfl⟩

/-- The hypotheses of C31 and C40 are met: three points not on a line, tolerance 0. -/
example : Pts.areCollinear (some 0) (rows [vec3 0 0 0, vec3 1 0 0, vec3 0 1 0]) = .ok false ∧
    Pts.areConcurrent (some 0) (rows [vec3 0 0 0, vec3 1 0 0, vec3 0 1 0]) = .ok false := by
  have hx : ∀ x : ℝ, vec3 0 0 0 ≠ vec3 1 x 0 := by
    intro x h; have := congrFun (congrArg WithLp.ofLp h) 0; simp [vec3] at this
  have hnc : ¬ Collinear ℝ {x | x ∈ [vec3 0 0 0, vec3 1 0 0, vec3 0 1 0]} := by
    intro h
    have hs : ({x | x ∈ [vec3 0 0 0, vec3 1 0 0, vec3 0 1 0]} : Set (E 3)) =
        {vec3 0 0 0, vec3 1 0 0, vec3 0 1 0} := by ext x; simp
    rw [hs] at h
    have h2 := (crossE_eq_zero_iff _ _).mpr (collinear_dependent h)
    have := congrFun (congrArg WithLp.ofLp h2) 2
    simp [vec3, crossE] at this
  obtain ⟨h1, h2, -⟩ := C22_exact (P := [vec3 0 0 0, vec3 1 0 0, vec3 0 1 0]) (by simp)
  rw [h2, h1]
  refine ⟨by simp only [hnc, decide_false], ?_⟩
  rw [Except.ok.injEq, decide_eq_false_iff_not]
  rintro ⟨c, hc⟩
  have e1 := hc (vec3 0 0 0) (by simp)
  have e2 := hc (vec3 1 0 0) (by simp)
  exact hx 0 (e1.trans e2.symm)

end
end SkSpatial
