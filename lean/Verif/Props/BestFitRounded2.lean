import Verif.Props.BestFitRounded
/-!
# C106: best-fit planes under rounding
-/

namespace SkSpatial
open Finset StdRounding

variable {n : ℕ} {u η : ℝ} {fl : Arith}

/-- The root of the sum of the squared components in the direction `x`. -/
noncomputable abbrev rsp {m : ℕ} (A : Fin m → E n) (x : E n) : ℝ := √(∑ i, (inner ℝ (A i) x : ℝ) ^ 2)

theorem infDist_planeSet (p : E n) {m : E n} (hm : m ≠ 0) (x : E n) :
    Metric.infDist x (planeSet p m) = |inner ℝ (x - p) m| / ‖m‖ := by
  have h1 : Metric.infDist x (planeSet p m) = dist x (pfootE p m x) := by
    refine le_antisymm (Metric.infDist_le_dist_of_mem (pfootE_mem p hm x)) ?_
    refine (Metric.le_infDist ⟨_, pfootE_mem p hm x⟩).mpr fun y hy => pfootE_le p hm x y hy
  rw [h1, dist_pfootE p hm, psignedE, real_inner_smul_right, real_inner_comm, abs_mul, abs_inv, abs_norm, div_eq_inv_mul]

theorem planeFit_eq (P : List (E n)) (q : E n) {m : E n} (hm : m ≠ 0) :
    planeFit P q m = rsp (fun i => P.get i - q) m / ‖m‖ := by
  have hn : 0 < ‖m‖ := norm_pos_iff.mpr hm
  rw [planeFit, sum_map_get, rsp, ← Real.sqrt_sq hn.le, ← Real.sqrt_div (by positivity), sum_div]
  congr 1
  refine sum_congr rfl fun i _ => ?_
  rw [infDist_planeSet q hm, div_pow, sq_abs]

theorem planeFit_smul (P : List (E n)) (q m : E n) {t : ℝ} (ht : t ≠ 0) : planeFit P q (t • m) = planeFit P q m := by
  have : planeSet q (t • m) = planeSet q m := by
    ext x
    simp only [planeSet, Set.mem_ofPred_eq, real_inner_smul_right, mul_eq_zero, ht, false_or]
  rw [planeFit, this, planeFit]

/-- No plane fits better than the parallel one through the centroid. -/
theorem rsp_centroid_le {m : ℕ} (hm : m ≠ 0) (q : Fin m → E n) (p x : E n) {c : E n} (hc : c = (m : ℝ)⁻¹ • ∑ i, q i) :
    rsp (fun i => q i - c) x ≤ rsp (fun i => q i - p) x := by
  refine Real.sqrt_le_sqrt ?_
  have hmr : (m : ℝ) ≠ 0 := Nat.cast_ne_zero.mpr hm
  have hs : ∑ i, (inner ℝ (q i - c) x : ℝ) = 0 := by
    rw [← sum_inner, sum_sub_distrib, sum_const, hc, card_univ, Fintype.card_fin, ← Nat.cast_smul_eq_nsmul ℝ, smul_smul,
      mul_inv_cancel₀ hmr, one_smul, sub_self, inner_zero_left]
  have e : ∀ i, (inner ℝ (q i - p) x : ℝ) ^ 2 = inner ℝ (q i - c) x ^ 2 + 2 * inner ℝ (c - p) x * inner ℝ (q i - c) x +
      inner ℝ (c - p) x ^ 2 := by
    intro i
    have : (inner ℝ (q i - p) x : ℝ) = inner ℝ (q i - c) x + inner ℝ (c - p) x := by
      rw [← inner_add_left]; congr 1; abel
    rw [this]; ring
  rw [sum_congr rfl fun i _ => e i, sum_add_distrib, sum_add_distrib, ← mul_sum, hs, sum_const]
  have : 0 ≤ (univ : Finset (Fin m)).card • (inner ℝ (c - p) x : ℝ) ^ 2 := by positivity
  linarith

/-- The spread depends on the direction in a Lipschitz way. -/
theorem rsp_dir {m : ℕ} (A : Fin m → E n) (x y : E n) : rsp A x ≤ rsp A y + ‖x - y‖ * fnorm A := by
  obtain ⟨f, hf⟩ : ∃ f : E n → E m, ∀ x, f x = WithLp.toLp 2 fun i => (inner ℝ (A i) x : ℝ) := ⟨_, fun _ => rfl⟩
  have hn : ∀ x, ‖f x‖ = rsp A x := by
    intro x; rw [hf, EuclideanSpace.norm_eq, rsp]; simp
  have h1 : f x = f y + f (x - y) := by
    rw [hf, hf, hf]; ext i; simp [inner_sub_right]
  rw [← hn, ← hn, h1]
  refine (norm_add_le _ _).trans (add_le_add_right ?_ _)
  refine le_of_sq_le_sq ?_ (by positivity)
  rw [hn, Real.sq_sqrt (by positivity), mul_pow, fnorm_sq, mul_sum]
  refine sum_le_sum fun i _ => ?_
  rw [← sq_abs, mul_comm, ← mul_pow]
  exact pow_le_pow_left₀ (abs_nonneg _) (abs_real_inner_le_norm _ _) 2

/-- A matrix from its three columns. -/
theorem exists_transpose3 {N : ℕ} (a b c : E N) : ∃ (A : List (E 3)) (hA : A.length = N),
    (∀ i, A.get i = vec3 (a (i.cast hA)) (b (i.cast hA)) (c (i.cast hA))) ∧
    ∀ (W : ℕ → E 3) (σ : ℕ → ℝ) (V : ℕ → E N), Dec [a, b, c] W σ V →
      ∀ x : E 3, ∑ i, (inner ℝ (A.get i) x : ℝ) ^ 2 = ∑ l ∈ range (min 3 N), σ l ^ 2 * (inner ℝ (W l) x : ℝ) ^ 2 := by
  obtain ⟨A, hA, hget⟩ : ∃ (A : List (E 3)) (hA : A.length = N), ∀ i, A.get i = vec3 (a (i.cast hA)) (b (i.cast hA)) (c (i.cast hA)) :=
    ⟨List.ofFn fun i => vec3 (a i) (b i) (c i), List.length_ofFn, fun i => by simp; rfl⟩
  refine ⟨A, hA, hget, ?_⟩
  subst hA
  intro W σ V hd x
  have ha : a = WithLp.toLp 2 fun i => (A.get i) 0 := by ext i; simp only [hget]; rfl
  have hb : b = WithLp.toLp 2 fun i => (A.get i) 1 := by ext i; simp only [hget]; rfl
  have hc : c = WithLp.toLp 2 fun i => (A.get i) 2 := by ext i; simp only [hget]; rfl
  clear hget
  subst ha hb hc
  have hd' : Dec (transpose3 A) W σ V := hd
  have := (dec_transpose hd').sum_inner_sq x
  rwa [min_comm] at this

theorem frob3 {N : ℕ} (a b c : E N) : frob [a, b, c] = fnorm fun i : Fin N => vec3 (a i) (b i) (c i) := by
  rw [frob]
  refine ((Real.sqrt_sq (norm_nonneg _ : 0 ≤ fnorm fun i : Fin N => vec3 (a i) (b i) (c i))).symm.trans ?_).symm
  rw [fnorm_sq]
  congr 1
  simp only [List.map_cons, List.map_nil, List.sum_cons, List.sum_nil, norm_sq_coords, add_zero, Fin.sum_univ_three,
    sum_add_distrib, vec3]
  simp [add_assoc]

/-- The stable decomposition `Plane.best_fit` uses. -/
theorem svd_transpose_stable [NumpyExt ℝ] [hS : StableNumpy η] (A : List (E 3)) (full : Bool) (hA : A ≠ []) {N : ℕ} (hN : A.length = N) :
    ∃ (A' : List (E 3)) (W W' : ℕ → E 3) (σ : ℕ → ℝ), A'.length = N ∧
      frob (List.zipWith (· - ·) A' A) ≤ η * frob A ∧ (∀ l, 0 ≤ σ l) ∧ Antitone σ ∧
      Orthonormal ℝ (fun l : Fin (if full then 3 else min 3 N) => W l) ∧
      (∀ x : E 3, ∑ i, (inner ℝ (A'.get i) x : ℝ) ^ 2 = ∑ l ∈ range (min 3 N), σ l ^ 2 * (inner ℝ (W l) x : ℝ) ^ 2) ∧
      (∀ l, ‖W' l - W l‖ ≤ η) ∧
      rowDim (NumpyExt.svd full (rows (transpose3 A))).1 = (if full then 3 else min 3 N) ∧
      (2 < (if full then 3 else min 3 N) → column (NumpyExt.svd full (rows (transpose3 A))).1 2 = arr (W' 2)) ∧
      (NumpyExt.svd full (rows (transpose3 A))).2.1 = (List.range (min 3 N)).map σ := by
  subst hN
  obtain ⟨T, hT⟩ : ∃ T, T = transpose3 A := ⟨_, rfl⟩
  obtain ⟨B, W, W', σ, V, V', h1, h2, h3, h4, h5, h6, h7, h8, -, h9, h10, -⟩ :=
    hS.svd (transpose3 A) full (by simp [transpose3]) (by simpa using hA)
  obtain ⟨a, b, c, rfl⟩ := List.length_eq_three.mp (h1.trans rfl)
  obtain ⟨A', hA', hget, hsum⟩ := exists_transpose3 a b c
  have hmin : min [a, b, c].length A.length = min 3 A.length := rfl
  refine ⟨A', W, W', σ, hA', ?_, h5, h6, h3, ?_, h8, ?_, ?_, h10⟩
  · have e1 : List.zipWith (· - ·) A' A = List.ofFn fun i : Fin A.length => A'.get (i.cast hA'.symm) - A.get i := by
      conv_lhs => rw [← List.ofFn_get A]
      exact zipWith_ofFn' hA' A.get
    have e2 : frob (transpose3 A) = frob A := by
      rw [transpose3, frob3, frob_get]
      congr 2; funext i; ext j; fin_cases j <;> rfl
    have e3 : frob (List.zipWith (· - ·) [a, b, c] (transpose3 A)) = frob (List.zipWith (· - ·) A' A) := by
      rw [e1, frob_ofFn, transpose3, List.zipWith_cons_cons, List.zipWith_cons_cons, List.zipWith_cons_cons,
        List.zipWith_nil_left, frob3]
      congr 2; funext i; rw [hget]; ext j; fin_cases j <;> rfl
    rw [← e3, ← e2]; exact h2
  · refine hsum W σ V ⟨orthonormal_sub ?_ h3, orthonormal_sub ?_ h4, h5, h6, h7⟩
    · split <;> simp
    · split <;> simp
  · rw [h9]
    simp [rowDim]
  · intro hlt
    rw [h9, column, List.map_ofFn]
    have hl : 2 < (if full then [a, b, c].length else min [a, b, c].length A.length) := hlt
    show _ = List.ofFn _
    congr 1
    funext i
    simp only [Function.comp, List.getD_eq_getElem?_getD, List.getElem?_map, List.getElem?_range hl]
    rfl

theorem parseval3 {W : ℕ → E 3} (hon : Orthonormal ℝ (fun l : Fin 3 => W l)) (d : E 3) :
    ∑ l ∈ range 3, (inner ℝ (W l) d : ℝ) ^ 2 = ‖d‖ ^ 2 := by
  let b := basisOfOrthonormalOfCardEqFinrank hon (by simp)
  have hb : Orthonormal ℝ b := by
    rw [coe_basisOfOrthonormalOfCardEqFinrank]; exact hon
  have := (b.toOrthonormalBasis hb).sum_sq_norm_inner_right d
  rw [← this, ← Fin.sum_univ_eq_sum_range (fun l => (inner ℝ (W l) d : ℝ) ^ 2) 3]
  refine sum_congr rfl fun l _ => ?_
  simp [b, Real.norm_eq_abs, sq_abs]

/-- The last of three singular directions has the least spread. -/
theorem least_dir {A : List (E 3)} {W : ℕ → E 3} {σ : ℕ → ℝ} (hσ : ∀ l, 0 ≤ σ l) (ha : Antitone σ)
    (hon : Orthonormal ℝ (fun l : Fin 3 => W l)) {k : ℕ} (hk : k ≤ 3)
    (hsum : ∀ x : E 3, ∑ i, (inner ℝ (A.get i) x : ℝ) ^ 2 = ∑ l ∈ range k, σ l ^ 2 * (inner ℝ (W l) x : ℝ) ^ 2) :
    rsp A.get (W 2) = (if k = 3 then σ 2 else 0) ∧ ∀ x : E 3, (if k = 3 then σ 2 else 0) * ‖x‖ ≤ rsp A.get x := by
  have hWW : ∀ l < 3, (inner ℝ (W l) (W 2) : ℝ) = if l = 2 then 1 else 0 := by
    intro l hl
    have := orthonormal_iff_ite.mp hon ⟨l, hl⟩ 2
    simpa [Fin.ext_iff] using this
  have h2 : ∑ i, (inner ℝ (A.get i) (W 2) : ℝ) ^ 2 = (if k = 3 then σ 2 else 0) ^ 2 := by
    rw [hsum]
    rw [sum_congr rfl fun l hl => by rw [hWW l (by have := mem_range.mp hl; omega)]]
    split
    · subst k; simp [sum_range_succ]
    · rw [sum_eq_zero fun l hl => ?_]
      · simp
      · rw [if_neg (by have := mem_range.mp hl; omega)]; simp
  have h0 : 0 ≤ (if k = 3 then σ 2 else 0) := by split; exacts [hσ 2, le_rfl]
  refine ⟨by rw [rsp, h2, Real.sqrt_sq h0], fun x => ?_⟩
  split
  · subst k
    refine Real.le_sqrt_of_sq_le ?_
    rw [mul_pow, ← parseval3 hon, mul_sum, hsum]
    refine sum_le_sum fun l hl => mul_le_mul_of_nonneg_right ?_ (sq_nonneg _)
    exact pow_le_pow_left₀ (hσ 2) (ha (by have := mem_range.mp hl; omega)) 2
  · rw [zero_mul]; exact Real.sqrt_nonneg _

theorem unit_near {v w : E n} (hw : ‖w‖ = 1) (hv : v ≠ 0) (h : ‖v - w‖ ≤ η) : ‖‖v‖⁻¹ • v - w‖ ≤ 2 * η := by
  have hn : ‖v‖ ≠ 0 := norm_ne_zero_iff.mpr hv
  have h1 : ‖‖v‖⁻¹ • v - v‖ ≤ η := by
    have e : ‖v‖⁻¹ • v - v = (‖v‖⁻¹ - 1) • v := by rw [sub_smul, one_smul]
    rw [e, norm_smul, Real.norm_eq_abs]
    have e2 : |‖v‖⁻¹ - 1| * ‖v‖ = |1 - ‖v‖| := by
      rw [← abs_norm v, ← abs_mul, abs_norm, sub_mul, inv_mul_cancel₀ hn, one_mul]
    rw [e2, ← hw, abs_sub_comm]
    exact (abs_norm_sub_norm_le _ _).trans h
  calc ‖‖v‖⁻¹ • v - w‖ = ‖(‖v‖⁻¹ • v - v) + (v - w)‖ := by congr 1; abel
    _ ≤ _ := norm_add_le _ _
    _ ≤ 2 * η := by linarith

/-- C106: `Plane.best_fit(points, return_error=True)` under rounding with a backward stable `svd`. -/
theorem C106_plane_best_fit (h : StdRounding u fl) (hu : u ≤ 1 / 2) [ext : NumpyExt ℝ] [hS : StableNumpy η]
    {P : List (E 3)} (hP : P ≠ []) (tol : Option ℝ) (full : Bool) :
    (@Pts.areCollinear ℝ (rounded fl) ext tol (rows P) = .ok true →
      ∃ msg, @Plane.bestFit ℝ (rounded fl) ext (rows P) tol full = .error (.valueError msg)) ∧
    (@Pts.areCollinear ℝ (rounded fl) ext tol (rows P) = .ok false → full = false → P.length < 3 →
      ∃ msg, @Plane.bestFit ℝ (rounded fl) ext (rows P) tol full = .error (.indexError msg)) ∧
    (@Pts.areCollinear ℝ (rounded fl) ext tol (rows P) = .ok false → full = true ∨ 3 ≤ P.length →
      ∃ (c m : E 3) (err s : ℝ), @Plane.bestFit ℝ (rounded fl) ext (rows P) tol full = .ok (⟨arr c, arr m⟩, err) ∧
        @Pts.centroid ℝ (rounded fl) (rows P) = .ok (arr c) ∧ |‖m‖ - 1| ≤ η ∧
        0 ≤ s ∧ ApproxRel u 2 err (s ^ 2) ∧
        planeFit P c m ≤ s + 4 * fitNoise u η P ∧
        ∀ (q v : E 3), v ≠ 0 → s ≤ planeFit P q v + fitNoise u η P ∧
          planeFit P c m ≤ planeFit P q v + 5 * fitNoise u η P) := by
  have hd3 : rowDim (rows P) = 3 := rowDim_rows hP
  constructor
  · intro hc
    exact ⟨_, by simp only [Plane.bestFit, newPoints_rd hP, ok_bind, hd3, hc, if_true, ne_eq, not_true_eq_false, if_false]; rfl⟩
  have hm : P.length ≠ 0 := by simpa using hP
  have hc : centroidE P = (P.length : ℝ)⁻¹ • ∑ i, P.get i := by
    rw [centroidE, ← List.sum_ofFn, List.ofFn_get]
  obtain ⟨C, c', hC1, hC2, hC3, hC4⟩ := meanCenter_rd h hm P.get hc
  rw [List.ofFn_get] at hC1 hC3
  obtain ⟨A', W, W', σ, hl, hfr, hσ, ha, hon, hsum, hW', hdim, hcol, hS2⟩ :=
    svd_transpose_stable (η := η) (List.ofFn C) full (by simpa using hm) List.length_ofFn
  have htr : transposeRows (rows (List.ofFn C)) = rows (transpose3 (List.ofFn C)) := transposeRows_rows (by simpa using hm)
  have htr' : @transposeRows ℝ (rounded fl) (rows (List.ofFn C)) = rows (transpose3 (List.ofFn C)) := by
    rw [← htr]; rfl
  constructor
  · rintro hcl rfl hlt
    have : rowDim (NumpyExt.svd false (rows (transpose3 (List.ofFn C)))).1 ≤ 2 := by
      rw [hdim]; simp; omega
    refine ⟨_, by
      simp only [Plane.bestFit, newPoints_rd hP, ok_bind, hd3, hcl, ne_eq, not_true_eq_false, if_false, Bool.false_eq_true, hC1,
        htr', this, if_true]
      rfl⟩
  intro hcl h3
  have hk3 : (if full then 3 else min 3 P.length) = 3 := by
    rcases h3 with rfl | h3
    · simp
    · split <;> omega
  rw [hk3] at hon hdim hcol
  have hcol' := hcol (by norm_num)
  have hcol2 : @column ℝ (rounded fl) (NumpyExt.svd full (rows (transpose3 (List.ofFn C)))).1 2 = arr (W' 2) := by
    rw [← hcol']
    unfold column
    rw [zero_rd, zero_real]
  obtain ⟨hl1, hl2⟩ := least_dir hσ ha hon (min_le_left 3 P.length) hsum
  have hBA := centred_svd (η := η) h hP rfl hC2 hl hfr
  obtain ⟨hp1, hp2, hp3⟩ := fitNoise_parts h hS.nonneg P
  obtain ⟨e, he⟩ : ∃ e, e = fitNoise u η P := ⟨_, rfl⟩
  rw [← he] at hBA hp1 hp2 hp3 ⊢
  rw [← frob_get] at hC4
  obtain ⟨s, hs⟩ : ∃ s, s = (if min 3 P.length = 3 then σ 2 else 0) := ⟨_, rfl⟩
  rw [← hs] at hl1 hl2
  have hs0 : 0 ≤ s := by rw [hs]; split; exacts [hσ 2, le_rfl]
  have hnorm : ‖W 2‖ = 1 := hon.1 2
  have hmn : |‖W' 2‖ - 1| ≤ η := by
    rw [← hnorm]; exact (abs_norm_sub_norm_le _ _).trans (hW' 2)
  have hm0 : W' 2 ≠ 0 := by
    intro h0
    rw [h0, norm_zero, zero_sub, abs_neg, abs_one] at hmn
    linarith [hS.lt_one]
  have hcast : ∀ x : E 3, rsp A'.get x = rsp (fun i : Fin P.length => A'.get (i.cast hl.symm)) x := by
    intro x
    rw [rsp, rsp, ← (finCongr hl.symm).sum_comp]
    rfl
  have hres : ∀ x : E 3, rsp A'.get x ≤ rsp (fun i => P.get i - centroidE P) x + e * ‖x‖ ∧
      rsp (fun i => P.get i - centroidE P) x ≤ rsp A'.get x + e * ‖x‖ := by
    intro x
    rw [hcast]
    constructor
    · exact (rootSpread_le _ _ x).trans (add_le_add_right (mul_le_mul_of_nonneg_right hBA (norm_nonneg _)) _)
    · refine (rootSpread_le _ _ x).trans (add_le_add_right (mul_le_mul_of_nonneg_right ?_ (norm_nonneg _)) _)
      have := fnorm_sub_comm (fun i => P.get i - centroidE P) fun i : Fin P.length => A'.get (i.cast hl.symm)
      exact this.trans_le hBA
  have hlow : ∀ q v : E 3, v ≠ 0 → s ≤ planeFit P q v + e := by
    intro q v hv
    have hvn : 0 < ‖v‖ := norm_pos_iff.mpr hv
    rw [planeFit_eq P q hv]
    have h1 := rsp_centroid_le hm P.get q v hc
    have h2 : s * ‖v‖ ≤ rsp (fun i => P.get i - q) v + e * ‖v‖ := by
      linarith [(hres v).1, hl2 v]
    rw [← sub_le_iff_le_add, le_div_iff₀ hvn]
    linarith
  have hup : planeFit P c' (W' 2) ≤ s + 4 * e := by
    have hinv : ‖W' 2‖⁻¹ ≠ 0 := inv_ne_zero (norm_ne_zero_iff.mpr hm0)
    obtain ⟨w, hw⟩ : ∃ w, w = ‖W' 2‖⁻¹ • W' 2 := ⟨_, rfl⟩
    have hwn : ‖w‖ = 1 := by
      rw [hw, norm_smul, norm_inv, norm_norm, inv_mul_cancel₀ (norm_ne_zero_iff.mpr hm0)]
    have hw0 : w ≠ 0 := by rw [← norm_ne_zero_iff, hwn]; norm_num
    rw [← planeFit_smul P c' (W' 2) hinv, ← hw, planeFit_eq P c' hw0, hwn, div_one]
    have h1 : rsp (fun i => P.get i - c') w ≤ rsp (fun i => P.get i - centroidE P) w + e := by
      have := rootSpread_le (fun i => P.get i - c') (fun i => P.get i - centroidE P) w
      rw [hwn, mul_one] at this
      refine this.trans (add_le_add_right ?_ _)
      refine le_trans (le_of_eq ?_) (hC4.trans hp1)
      congr 2; funext i; abel
    have h2 := rsp_dir (fun i => P.get i - centroidE P) w (W 2)
    have h3 : ‖w - W 2‖ * fnorm (fun i => P.get i - centroidE P) ≤ 2 * e := by
      have h4 : ‖w - W 2‖ ≤ 2 * η := by rw [hw]; exact unit_near hnorm hm0 (hW' 2)
      have h5 : fnorm (fun i => P.get i - centroidE P) ≤ frob P := by
        rw [frob_get]; exact fnorm_centered hm P.get hc
      have := mul_le_mul h4 h5 (norm_nonneg _) (by linarith [hS.nonneg])
      linarith
    have h6 := (hres (W 2)).2
    rw [hnorm, mul_one, hl1] at h6
    linarith
  refine ⟨c', W' 2, @sumL ℝ (rounded fl) ((((List.range (min 3 P.length)).map σ).drop 2).map (@sq ℝ (rounded fl))), s,
    ?_, hC3, hmn, hs0, ?_, hup, fun q v hv => ⟨hlow q v hv, ?_⟩⟩
  · have hd2 : ¬ rowDim (NumpyExt.svd full (rows (transpose3 (List.ofFn C)))).1 ≤ 2 := by rw [hdim]; norm_num
    simp only [Plane.bestFit, newPoints_rd hP, ok_bind, hd3, hcl, ne_eq, not_true_eq_false, if_false, Bool.false_eq_true, hC1,
      htr', hd2, hcol2, new1D_rd, ((C73_constructors h hu c' (W' 2)).1 hm0).2, hS2, pure_ok]
  · rw [hs]
    split
    · rename_i h33
      rw [h33]
      have := sumSq_drop_rd h 3 2 (by norm_num) σ
      simpa [sum_range_succ] using this
    · have : ((List.range (min 3 P.length)).map σ).drop 2 = [] := by
        rw [List.drop_eq_nil_iff]; simp; omega
      rw [this]
      have h0 := h.sumL_rp le_rfl (l := []) (l' := []) List.Forall₂.nil (by simp)
      have h1 := h.approxRel (h0.mono h.eps_nonneg (by norm_num : _ ≤ (2 : ℝ))) (by simp)
      simpa using h1
  · linarith [hlow q v hv]

end SkSpatial
