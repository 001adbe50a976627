import Verif.Props.RankRounded
import Verif.Props.BestFit
import Verif.Props.CylinderFit
/-!
# C106: best-fit lines and planes under rounding

`Line.best_fit` and `Plane.best_fit` when the centring is rounded and `svd` is only backward stable: the fit is optimal up
to the noise.
-/

namespace SkSpatial
open Finset StdRounding

variable {n : ℕ} {u η : ℝ} {fl : Arith}

/-- The part of `x` perpendicular to `d`. -/
noncomputable def prp (d x : E n) : E n := x - ((inner ℝ d x : ℝ) / ‖d‖ ^ 2) • d

theorem prp_sub (d x y : E n) : prp d (x - y) = prp d x - prp d y := by
  simp only [prp, inner_sub_right, sub_div, sub_smul]; abel

theorem prp_norm_sq {d : E n} (hd : d ≠ 0) (x : E n) : ‖prp d x‖ ^ 2 = ‖x‖ ^ 2 - (inner ℝ d x : ℝ) ^ 2 / ‖d‖ ^ 2 := by
  have h : ‖d‖ ≠ 0 := norm_ne_zero_iff.mpr hd
  rw [prp, norm_sub_sq_real, norm_smul, real_inner_smul_right, real_inner_comm x d, mul_pow, Real.norm_eq_abs, sq_abs]
  field_simp
  ring

theorem prp_norm_le {d : E n} (hd : d ≠ 0) (x : E n) : ‖prp d x‖ ≤ ‖x‖ := by
  refine le_of_sq_le_sq ?_ (norm_nonneg _)
  rw [prp_norm_sq hd]
  have : 0 ≤ (inner ℝ d x : ℝ) ^ 2 / ‖d‖ ^ 2 := by positivity
  linarith

theorem fnorm_sub_comm {m : ℕ} (A B : Fin m → E n) : fnorm (fun i => A i - B i) = fnorm fun i => B i - A i := by
  have e1 : (WithLp.toLp 2 fun i => A i - B i : PiLp 2 fun _ : Fin m => E n) = -(WithLp.toLp 2 fun i => B i - A i) := by
    ext i; simp
  rw [fnorm, e1, norm_neg]

theorem prp_lip {m : ℕ} {d : E n} (hd : d ≠ 0) (A B : Fin m → E n) :
    fnorm (fun i => prp d (A i)) ≤ fnorm (fun i => prp d (B i)) + fnorm (fun i => A i - B i) := by
  have h1 := fnorm_add_le (fun i => prp d (B i)) (fun i => prp d (A i - B i))
  have h2 : fnorm (fun i => prp d (A i - B i)) ≤ 1 * fnorm (fun i => A i - B i) :=
    fnorm_le_mul zero_le_one fun i => by rw [one_mul]; exact prp_norm_le hd _
  have e : (fun i => prp d (B i) + prp d (A i - B i)) = fun i => prp d (A i) := by
    funext i; rw [prp_sub]; abel
  rw [e] at h1
  linarith

theorem prp_smul_le (d x : E n) (hd : d ≠ 0) (t : ℝ) : ‖prp d x‖ ≤ ‖x - t • d‖ := by
  have : prp d x = prp d (x - t • d) := by
    have h : ‖d‖ ≠ 0 := norm_ne_zero_iff.mpr hd
    simp only [prp, inner_sub_right, real_inner_smul_right, real_inner_self_eq_norm_sq]
    rw [sub_div, mul_div_assoc, div_self (by positivity), mul_one, sub_smul]
    abel
  rw [this]
  exact prp_norm_le hd _

/-- The residual depends on the direction in a Lipschitz way. -/
theorem prp_dir {m : ℕ} {v d : E n} (hv : ‖v‖ = 1) (hd : d ≠ 0) {η : ℝ} (hη : 0 ≤ η) (h : ‖d - v‖ ≤ η) (A : Fin m → E n) :
    fnorm (fun i => prp d (A i)) ≤ fnorm (fun i => prp v (A i)) + η * fnorm A := by
  have h1 := fnorm_add_le (fun i => prp v (A i)) (fun i => (inner ℝ v (A i) : ℝ) • (v - d))
  have h2 : fnorm (fun i => (inner ℝ v (A i) : ℝ) • (v - d)) ≤ η * fnorm A := by
    refine fnorm_le_mul hη fun i => ?_
    rw [norm_smul, Real.norm_eq_abs, mul_comm, norm_sub_rev]
    refine mul_le_mul h ?_ (abs_nonneg _) hη
    have := abs_real_inner_le_norm v (A i)
    rwa [hv, one_mul] at this
  have h3 : fnorm (fun i => prp d (A i)) ≤ 1 * fnorm (fun i => prp v (A i) + (inner ℝ v (A i) : ℝ) • (v - d)) := by
    refine fnorm_le_mul zero_le_one fun i => ?_
    rw [one_mul]
    refine (prp_smul_le d (A i) hd (inner ℝ v (A i))).trans (le_of_eq ?_)
    congr 1
    rw [prp, hv, smul_sub]
    simp
  linarith

theorem frob_get (P : List (E n)) : frob P = fnorm P.get := by
  have := frob_ofFn P.get
  rwa [List.ofFn_get] at this

theorem lineFit_eq (P : List (E n)) (q : E n) {d : E n} (hd : d ≠ 0) : lineFit P q d = fnorm fun i => prp d (P.get i - q) := by
  rw [lineFit, sum_map_get]
  refine ((Real.sqrt_sq (norm_nonneg _ : 0 ≤ fnorm fun i => prp d (P.get i - q))).symm.trans ?_).symm
  rw [fnorm_sq]
  congr 1
  refine sum_congr rfl fun i _ => ?_
  rw [infDist_lineSet q hd, dist_eq_norm]
  congr 2
  rw [prp, footE]
  abel

theorem prp_mean {m : ℕ} (q : Fin m → E n) (p d : E n) (hm : m ≠ 0) {c : E n} (hc : c = (m : ℝ)⁻¹ • ∑ i, q i) :
    prp d (c - p) = (m : ℝ)⁻¹ • ∑ i, prp d (q i - p) := by
  have hmr : (m : ℝ) ≠ 0 := Nat.cast_ne_zero.mpr hm
  have e : c - p = (m : ℝ)⁻¹ • ∑ i, (q i - p) := by
    rw [sum_sub_distrib, smul_sub, ← hc, sum_const, card_univ, Fintype.card_fin, ← Nat.cast_smul_eq_nsmul ℝ, smul_smul,
      inv_mul_cancel₀ hmr, one_smul]
  simp only [prp]
  rw [sum_sub_distrib, smul_sub, ← e, ← sum_smul, ← sum_div, ← inner_sum, smul_smul]
  congr 2
  rw [e, real_inner_smul_right]
  ring

/-- No line fits better than the parallel one through the centroid. -/
theorem centroid_fit_le {m : ℕ} (hm : m ≠ 0) (q : Fin m → E n) (p d : E n) {c : E n} (hc : c = (m : ℝ)⁻¹ • ∑ i, q i) :
    fnorm (fun i => prp d (q i - c)) ≤ fnorm fun i => prp d (q i - p) := by
  have := fnorm_centered hm (fun i => prp d (q i - p)) (prp_mean q p d hm hc)
  refine le_of_eq_of_le ?_ this
  congr 2
  funext i
  rw [← prp_sub]
  congr 1
  abel

/-- The first right singular vector gives the best direction. -/
theorem Dec.best_dir {A : List (E n)} {W : ℕ → E A.length} {σ : ℕ → ℝ} {V : ℕ → E n} (hd : Dec A W σ V)
    (hpos : 0 < min A.length n) : fnorm (fun i => prp (V 0) (A.get i)) ^ 2 = ∑ l ∈ range (min A.length n), σ l ^ 2 - σ 0 ^ 2 ∧
      ∀ d : E n, d ≠ 0 → fnorm (fun i => prp (V 0) (A.get i)) ≤ fnorm fun i => prp d (A.get i) := by
  have hnorm : ‖V 0‖ = 1 := hd.hV.1 ⟨0, hpos⟩
  have hV0 : V 0 ≠ 0 := by rw [← norm_ne_zero_iff, hnorm]; norm_num
  have hsum : ∀ d : E n, d ≠ 0 → fnorm (fun i => prp d (A.get i)) ^ 2 = ∑ l ∈ range (min A.length n), σ l ^ 2 -
      (∑ l ∈ range (min A.length n), σ l ^ 2 * (inner ℝ (V l) d : ℝ) ^ 2) / ‖d‖ ^ 2 := by
    intro d hd0
    rw [fnorm_sq, sum_congr rfl fun i _ => prp_norm_sq hd0 (A.get i), sum_sub_distrib, hd.sum_norm_sq, ← sum_div, ← hd.sum_inner_sq]
    congr 2
    refine sum_congr rfl fun i _ => ?_
    rw [real_inner_comm]
  have h0 : fnorm (fun i => prp (V 0) (A.get i)) ^ 2 = ∑ l ∈ range (min A.length n), σ l ^ 2 - σ 0 ^ 2 := by
    rw [hsum _ hV0, hnorm]
    have : ∑ l ∈ range (min A.length n), σ l ^ 2 * (inner ℝ (V l) (V 0) : ℝ) ^ 2 = σ 0 ^ 2 := by
      rw [sum_eq_single 0]
      · rw [hd.inner_V hpos hpos]; simp
      · intro l hl hl0
        rw [hd.inner_V (mem_range.mp hl) hpos, if_neg hl0]; simp
      · intro h0; exact absurd (mem_range.mpr hpos) h0
    rw [this]; simp
  refine ⟨h0, fun d hd0 => le_of_sq_le_sq ?_ (norm_nonneg _)⟩
  rw [h0, hsum d hd0]
  have hdn : 0 < ‖d‖ := norm_pos_iff.mpr hd0
  have hb : (∑ l ∈ range (min A.length n), σ l ^ 2 * (inner ℝ (V l) d : ℝ) ^ 2) / ‖d‖ ^ 2 ≤ σ 0 ^ 2 := by
    rw [div_le_iff₀ (by positivity)]
    calc ∑ l ∈ range (min A.length n), σ l ^ 2 * (inner ℝ (V l) d : ℝ) ^ 2
        ≤ ∑ l ∈ range (min A.length n), σ 0 ^ 2 * (inner ℝ (V l) d : ℝ) ^ 2 := by
          refine sum_le_sum fun l _ => mul_le_mul_of_nonneg_right ?_ (sq_nonneg _)
          exact pow_le_pow_left₀ (hd.nonneg l) (hd.anti (Nat.zero_le l)) 2
      _ = σ 0 ^ 2 * ∑ l ∈ range (min A.length n), (inner ℝ (V l) d : ℝ) ^ 2 := by rw [mul_sum]
      _ ≤ σ 0 ^ 2 * ‖d‖ ^ 2 := mul_le_mul_of_nonneg_left (hd.bessel d) (sq_nonneg _)
  linarith

/-- The noise dominates its parts. -/
theorem fitNoise_parts (h : StdRounding u fl) (hη : 0 ≤ η) (P : List (E n)) :
    (((1 - u) ^ (P.length + 1))⁻¹ - 1) * frob P ≤ fitNoise u η P ∧ η * frob P ≤ fitNoise u η P ∧ 0 ≤ fitNoise u η P := by
  have h1u : 0 < 1 - u := by linarith [h.lt_one]
  have hu0 := h.nonneg
  have hF : 0 ≤ frob P := Real.sqrt_nonneg _
  obtain ⟨a, ha⟩ : ∃ a, a = ((1 - u) ^ (P.length + 1))⁻¹ := ⟨_, rfl⟩
  obtain ⟨b, hb⟩ : ∃ b, b = ((1 - u) ^ (P.length + 2))⁻¹ := ⟨_, rfl⟩
  have h1 : 1 ≤ a := by rw [ha]; exact one_le_inv₀ (pow_pos h1u _) |>.mpr (pow_le_one₀ h1u.le (by linarith))
  have h2 : a ≤ b := by
    rw [ha, hb]
    exact inv_anti₀ (pow_pos h1u _) (pow_le_pow_of_le_one h1u.le (by linarith) (by omega))
  rw [fitNoise, ← ha, ← hb]
  refine ⟨mul_le_mul_of_nonneg_right ?_ hF, mul_le_mul_of_nonneg_right ?_ hF, mul_nonneg ?_ hF⟩ <;> nlinarith

theorem IsStableSVD.dec {A : List (E n)} {full : Bool} {usv} (h : IsStableSVD η A full usv) :
    ∃ (A' : List (E n)) (W W' : ℕ → E A'.length) (σ : ℕ → ℝ) (V V' : ℕ → E n), A'.length = A.length ∧
      frob (List.zipWith (· - ·) A' A) ≤ η * frob A ∧ Dec A' W σ V ∧
      (∀ l, ‖W' l - W l‖ ≤ η) ∧ (∀ l, ‖V' l - V l‖ ≤ η) ∧
      usv.1 = (List.ofFn fun i : Fin A'.length =>
        (List.range (if full then A'.length else min A'.length n)).map fun l => W' l i) ∧
      usv.2.1 = (List.range (min A'.length n)).map σ ∧
      usv.2.2 = (List.range (if full then n else min A'.length n)).map fun l => arr (V' l) := by
  obtain ⟨A', W, W', σ, V, V', h1, h2, h3, h4, h5, h6, h7, h8, h9, h10, h11, h12⟩ := h
  refine ⟨A', W, W', σ, V, V', h1, h2, ⟨orthonormal_sub ?_ h3, orthonormal_sub ?_ h4, h5, h6, h7⟩, h8, h9, h10, h11, h12⟩
  · split <;> omega
  · split <;> omega

theorem sum_range_list (σ : ℕ → ℝ) (m : ℕ) : ((List.range m).map σ).sum = ∑ l ∈ range m, σ l := by
  induction m with
  | zero => simp
  | succ m ih => rw [List.range_succ, List.map_append, List.sum_append, ih, sum_range_succ]; simp

theorem sum_drop_range (k j : ℕ) (hj : j ≤ k) (σ : ℕ → ℝ) :
    (((List.range k).map σ).drop j).sum = ∑ l ∈ range k, σ l - ∑ l ∈ range j, σ l := by
  have h2 := List.sum_take_add_sum_drop ((List.range k).map σ) j
  rw [← List.map_take, List.take_range, min_eq_left hj, sum_range_list, sum_range_list] at h2
  linarith

/-- The rounded sum of the squares of the last singular values. -/
theorem sumSq_drop_rd (h : StdRounding u fl) (k j : ℕ) (hj : j ≤ k) (σ : ℕ → ℝ) :
    ApproxRel u ((k - j + 1 : ℕ) : ℝ)
      (@sumL ℝ (rounded fl) ((((List.range k).map σ).drop j).map (@sq ℝ (rounded fl))))
      (∑ l ∈ range k, σ l ^ 2 - ∑ l ∈ range j, σ l ^ 2) := by
  have e : (((List.range k).map fun l => σ l ^ 2).drop j) = (((List.range k).map σ).drop j).map fun x => x ^ 2 := by
    rw [List.map_drop, List.map_map]; rfl
  have h1 : List.Forall₂ (RP (eps u) 1) ((((List.range k).map σ).drop j).map (@sq ℝ (rounded fl)))
      ((((List.range k).map σ).drop j).map fun x => x ^ 2) := by
    rw [List.forall₂_map_left_iff, List.forall₂_map_right_iff, List.forall₂_same]
    intro x _
    rw [sq_rd, pow_two]
    exact h.rp (x * x)
  have h2 := h.sumL_rp zero_le_one h1 (by intro y hy; obtain ⟨x, -, rfl⟩ := List.mem_map.mp hy; positivity)
  rw [← e, sum_drop_range k j hj fun l => σ l ^ 2] at h2
  have hnn : 0 ≤ ∑ l ∈ range k, σ l ^ 2 - ∑ l ∈ range j, σ l ^ 2 := by
    rw [← sum_drop_range k j hj fun l => σ l ^ 2, e]
    exact List.sum_nonneg (by intro y hy; obtain ⟨x, -, rfl⟩ := List.mem_map.mp hy; positivity)
  have h3 := h.approxRel h2 hnn
  have : (1 : ℝ) + (((((List.range k).map σ).drop j).map (@sq ℝ (rounded fl))).length : ℕ) = ((k - j + 1 : ℕ) : ℝ) := by
    simp; ring
  rwa [this] at h3

/-- The rounded centring followed by a stable decomposition: an exact decomposition of a matrix `B` within the noise of the
exactly centred points. -/
theorem centred_svd [NeZero n] (h : StdRounding u fl) [ext : NumpyExt ℝ] [hS : StableNumpy η] {P : List (E n)} (hP : P ≠ [])
    {C : Fin P.length → E n} {δ : ℝ} (hδ : δ = ((1 - u) ^ (P.length + 2))⁻¹ - 1)
    (hC : fnorm (fun i => C i - (P.get i - centroidE P)) ≤ δ * fnorm P.get) {A' : List (E n)} (hl : A'.length = P.length)
    (hA : frob (List.zipWith (· - ·) A' (List.ofFn C)) ≤ η * frob (List.ofFn C)) :
    fnorm (fun i : Fin P.length => A'.get (i.cast hl.symm) - (P.get i - centroidE P)) ≤ fitNoise u η P := by
  have hm : P.length ≠ 0 := by simpa using hP
  have hc : centroidE P = (P.length : ℝ)⁻¹ • ∑ i, P.get i := by
    rw [centroidE, ← List.sum_ofFn, List.ofFn_get]
  have := near_trans (A := fun i => P.get i - centroidE P) hS.nonneg hl hA hC (fnorm_centered hm P.get hc)
  refine this.trans (le_of_eq ?_)
  rw [fitNoise, frob_get, hδ]
  ring

/-- C106: `Line.best_fit(points, return_error=True)` under rounding with a backward stable `svd`. -/
theorem C106_line_best_fit [NeZero n] (h : StdRounding u fl) (hu : u ≤ 1 / 2) [ext : NumpyExt ℝ] [hS : StableNumpy η]
    {P : List (E n)} (hP : P ≠ []) (tol : Option ℝ) (full : Bool) :
    (@Pts.areConcurrent ℝ (rounded fl) ext tol (rows P) = .ok true →
      ∃ msg, @Line.bestFit ℝ (rounded fl) ext (rows P) tol full = .error (.valueError msg)) ∧
    (@Pts.areConcurrent ℝ (rounded fl) ext tol (rows P) = .ok false →
      ∃ (c d : E n) (err s : ℝ), @Line.bestFit ℝ (rounded fl) ext (rows P) tol full = .ok (⟨arr c, arr d⟩, err) ∧
        @Pts.centroid ℝ (rounded fl) (rows P) = .ok (arr c) ∧ |‖d‖ - 1| ≤ η ∧
        0 ≤ s ∧ ApproxRel u (min P.length n : ℕ) err (s ^ 2) ∧
        lineFit P c d ≤ s + 3 * fitNoise u η P ∧
        ∀ (q v : E n), v ≠ 0 → s ≤ lineFit P q v + fitNoise u η P ∧
          lineFit P c d ≤ lineFit P q v + 4 * fitNoise u η P) := by
  constructor
  · intro hc
    exact ⟨_, by simp only [Line.bestFit, newPoints_rd hP, ok_bind, hc, if_true]; rfl⟩
  intro hconc
  have hm : P.length ≠ 0 := by simpa using hP
  have hc : centroidE P = (P.length : ℝ)⁻¹ • ∑ i, P.get i := by
    rw [centroidE, ← List.sum_ofFn, List.ofFn_get]
  obtain ⟨C, c', hC1, hC2, hC3, hC4⟩ := meanCenter_rd h hm P.get hc
  rw [List.ofFn_get] at hC1 hC3
  obtain ⟨A', W, W', σ, V, V', hl, hfr, hd, -, hV', -, h2, h3⟩ :=
    (hS.svd (List.ofFn C) full (by simpa using hm) (NeZero.ne n)).dec
  have hlen : A'.length = P.length := by rw [hl, List.length_ofFn]
  have hk : 0 < min A'.length n := by have := NeZero.pos n; omega
  have hBA := centred_svd (η := η) h hP rfl hC2 hlen hfr
  obtain ⟨hp1, hp2, hp3⟩ := fitNoise_parts h hS.nonneg P
  obtain ⟨e, he⟩ : ∃ e, e = fitNoise u η P := ⟨_, rfl⟩
  rw [← he] at hBA hp1 hp2 hp3 ⊢
  rw [← frob_get] at hC4
  have hnorm : ‖V 0‖ = 1 := hd.hV.1 ⟨0, hk⟩
  have hdn : |‖V' 0‖ - 1| ≤ η := by
    rw [← hnorm]; exact (abs_norm_sub_norm_le _ _).trans (hV' 0)
  have hd0 : V' 0 ≠ 0 := by
    intro h0
    rw [h0, norm_zero, zero_sub, abs_neg, abs_one] at hdn
    linarith [hS.lt_one]
  have hV0 : V 0 ≠ 0 := by rw [← norm_ne_zero_iff, hnorm]; norm_num
  have hhead : (NumpyExt.svd full (rows (List.ofFn C))).2.2.headD [] = arr (V' 0) := by
    rw [h3]
    have : 0 < (if full then n else min A'.length n) := by split <;> omega
    obtain ⟨j, hj⟩ := Nat.exists_eq_succ_of_ne_zero this.ne'
    rw [hj, List.range_succ_eq_map]; rfl
  obtain ⟨hbest1, hbest2⟩ := hd.best_dir hk
  have hcast : ∀ d : E n, fnorm (fun i => prp d (A'.get i)) =
      fnorm (fun i : Fin P.length => prp d (A'.get (i.cast hlen.symm))) := by
    intro d
    refine le_antisymm ?_ ?_ <;> refine le_of_sq_le_sq (le_of_eq ?_) (norm_nonneg _)
    all_goals
      rw [fnorm_sq, fnorm_sq, ← (finCongr hlen.symm).sum_comp]
      rfl
  have hres : ∀ d : E n, d ≠ 0 → fnorm (fun i => prp d (A'.get i)) ≤ fnorm (fun i => prp d (P.get i - centroidE P)) + e ∧
      fnorm (fun i => prp d (P.get i - centroidE P)) ≤ fnorm (fun i => prp d (A'.get i)) + e := by
    intro d hd
    rw [hcast]
    constructor
    · exact (prp_lip hd _ _).trans (add_le_add_right hBA _)
    · refine (prp_lip hd _ _).trans (add_le_add_right ?_ _)
      rw [fnorm_sub_comm]; exact hBA
  have hlow : ∀ q v : E n, v ≠ 0 → fnorm (fun i => prp (V 0) (A'.get i)) ≤ lineFit P q v + e := by
    intro q v hv
    rw [lineFit_eq P q hv]
    have := centroid_fit_le hm P.get q v hc
    linarith [(hres v hv).1, hbest2 v hv]
  have hup : lineFit P c' (V' 0) ≤ fnorm (fun i => prp (V 0) (A'.get i)) + 3 * e := by
    rw [lineFit_eq P c' hd0]
    have h1 : fnorm (fun i => prp (V' 0) (P.get i - c')) ≤ fnorm (fun i => prp (V' 0) (P.get i - centroidE P)) + e := by
      refine (prp_lip hd0 (fun i => P.get i - c') (fun i => P.get i - centroidE P)).trans (add_le_add_right ?_ _)
      refine le_trans (le_of_eq ?_) (hC4.trans hp1)
      congr 2; funext i; abel
    have h2 := prp_dir hnorm hd0 hS.nonneg (hV' 0) fun i => P.get i - centroidE P
    have h3 : η * fnorm (fun i => P.get i - centroidE P) ≤ e := by
      refine le_trans (mul_le_mul_of_nonneg_left ?_ hS.nonneg) hp2
      rw [frob_get]; exact fnorm_centered hm P.get hc
    linarith [(hres (V 0) hV0).2]
  refine ⟨c', V' 0, @sumL ℝ (rounded fl) ((((List.range (min A'.length n)).map σ).drop 1).map (@sq ℝ (rounded fl))),
    fnorm (fun i => prp (V 0) (A'.get i)), ?_, hC3, hdn, norm_nonneg _, ?_, hup, fun q v hv => ⟨hlow q v hv, ?_⟩⟩
  · simp only [Line.bestFit, newPoints_rd hP, ok_bind, hconc, Bool.false_eq_true, if_false, hC1, hhead,
      ((C73_constructors h hu c' (V' 0)).1 hd0).1, h2, pure_ok]
  · have := sumSq_drop_rd h (min A'.length n) 1 hk σ
    rw [Nat.sub_add_cancel hk, sum_range_one, hlen] at this
    rw [hbest1, hlen]
    exact this
  · linarith [hlow q v hv]

end SkSpatial
