import Verif.Props.RankRounded2
import Verif.Props.BestFitRounded3
/-! # C108: coplanarity of lines under rounding -/

namespace SkSpatial
open Finset StdRounding

variable {n : ℕ} {u η : ℝ} {fl : Arith}

/-- A sum of non-negative terms over the distinct entries of a list. -/
theorem sum_toFinset_le [DecidableEq (E n)] (f : E n → ℝ) (hf : ∀ x, 0 ≤ f x) (l : List (E n)) :
    ∑ x ∈ l.toFinset, f x ≤ (l.map f).sum := by
  induction l with
  | nil => simp
  | cons a l ih =>
    rw [List.toFinset_cons, List.map_cons, List.sum_cons]
    by_cases ha : a ∈ l.toFinset
    · rw [insert_eq_of_mem ha]; linarith [hf a]
    · rw [sum_insert ha]; linarith

/-- `line.to_point()` under rounding. -/
theorem toPoint_rd (h : StdRounding u fl) (p d : E n) (hd : ∀ i, fl (d i) = d i) :
    ∃ a : E n, @Line.toPoint ℝ (rounded fl) ⟨arr p, arr d⟩ (@one ℝ (rounded fl)) = .ok (arr a) ∧ ‖a - (p + d)‖ ≤ u * ‖p + d‖ := by
  obtain ⟨a, ha1, ha2⟩ := vadd_rd (fl := fl) p d
  refine ⟨a, ?_, ?_⟩
  · have hs : @smul ℝ (rounded fl) (@one ℝ (rounded fl)) (arr d) = arr d := by
      simp only [smul, arr, List.map_ofFn]
      congr 1
      funext i
      show fl (((1 : ℤ) : ℝ) * d i) = d i
      rw [Int.cast_one, one_mul, hd]
    simp only [Line.toPoint, hs]
    exact ha1
  · refine norm_le_of_coords h.nonneg fun j => ?_
    have := h.err (p j + d j)
    simpa [ha2] using this

theorem norm_le_of_near {x y : E n} (hxy : ‖x - y‖ ≤ u * ‖y‖) : ‖x‖ ≤ (1 + u) * ‖y‖ := by
  have := norm_sub_norm_le x y
  linarith

theorem coplanar_noise_bound [DecidableEq (E n)] (h : StdRounding u fl) (hη : 0 ≤ η) {p d q e a b : E n}
    (ha : ‖a - (p + d)‖ ≤ u * ‖p + d‖) (hb : ‖b - (q + e)‖ ≤ u * ‖q + e‖) :
    rankNoise u η [p, a, q, b].toFinset + u * √(‖p + d‖ ^ 2 + ‖q + e‖ ^ 2) ≤ coplanarNoise u η p d q e := by
  have h1u : 0 < 1 - u := by linarith [h.lt_one]
  have hu0 := h.nonneg
  obtain ⟨M, hM⟩ : ∃ M, M = √(‖p‖ ^ 2 + ‖p + d‖ ^ 2 + ‖q‖ ^ 2 + ‖q + e‖ ^ 2) := ⟨_, rfl⟩
  have hM0 : 0 ≤ M := hM ▸ Real.sqrt_nonneg _
  have hM2 : M ^ 2 = ‖p‖ ^ 2 + ‖p + d‖ ^ 2 + ‖q‖ ^ 2 + ‖q + e‖ ^ 2 := by rw [hM]; exact Real.sq_sqrt (by positivity)
  have h1 : √(‖p + d‖ ^ 2 + ‖q + e‖ ^ 2) ≤ M := by
    rw [hM]; refine Real.sqrt_le_sqrt ?_
    have := sq_nonneg ‖p‖; have := sq_nonneg ‖q‖; linarith
  have h2 : momentNorm [p, a, q, b].toFinset ≤ (1 + u) * M := by
    rw [momentNorm]
    refine Real.sqrt_le_iff.mpr ⟨by positivity, (sum_toFinset_le _ (fun x => sq_nonneg _) _).trans ?_⟩
    have ea := pow_le_pow_left₀ (norm_nonneg _) (norm_le_of_near ha) 2
    have eb := pow_le_pow_left₀ (norm_nonneg _) (norm_le_of_near hb) 2
    have ep : ‖p‖ ^ 2 ≤ ((1 + u) * ‖p‖) ^ 2 := pow_le_pow_left₀ (norm_nonneg _) (by nlinarith [norm_nonneg p]) 2
    have eq : ‖q‖ ^ 2 ≤ ((1 + u) * ‖q‖) ^ 2 := pow_le_pow_left₀ (norm_nonneg _) (by nlinarith [norm_nonneg q]) 2
    rw [mul_pow, hM2]
    rw [mul_pow] at ea eb ep eq
    simp only [List.map_cons, List.map_nil, List.sum_cons, List.sum_nil]
    linarith
  have hcard : [p, a, q, b].toFinset.card + 2 ≤ 6 := by
    have := List.toFinset_card_le [p, a, q, b]
    simp only [List.length_cons, List.length_nil] at this
    omega
  obtain ⟨κ, hκ⟩ : ∃ κ, κ = ((1 - u) ^ 6)⁻¹ := ⟨_, rfl⟩
  have hκ1 : 1 ≤ κ := by
    rw [hκ]; exact one_le_inv₀ (pow_pos h1u _) |>.mpr (pow_le_one₀ h1u.le (by linarith))
  have h3 : rankNoise u η [p, a, q, b].toFinset ≤ ((1 + η) * κ - 1) * ((1 + u) * M) := by
    rw [rankNoise]
    refine mul_le_mul ?_ h2 (Real.sqrt_nonneg _) ?_
    · rw [hκ]
      have : ((1 - u) ^ ([p, a, q, b].toFinset.card + 2))⁻¹ ≤ ((1 - u) ^ 6)⁻¹ :=
        inv_anti₀ (pow_pos h1u _) (pow_le_pow_of_le_one h1u.le (by linarith) hcard)
      have := mul_le_mul_of_nonneg_left this (by linarith : 0 ≤ 1 + η)
      linarith
    · nlinarith
  have h4 : κ * (1 + u) ≤ ((1 - u) ^ 7)⁻¹ := by
    rw [hκ, pow_succ (1 - u) 6, mul_inv]
    refine mul_le_mul_of_nonneg_left ?_ (by positivity)
    rw [le_inv_comm₀ (by positivity) h1u, inv_eq_one_div, le_div_iff₀ (by positivity)]
    nlinarith [sq_nonneg u]
  rw [coplanarNoise, ← hM]
  have h5 := mul_le_mul_of_nonneg_left h1 hu0
  calc _ ≤ ((1 + η) * κ - 1) * ((1 + u) * M) + u * M := add_le_add h3 h5
    _ = ((1 + η) * (κ * (1 + u)) - 1) * M := by ring
    _ ≤ _ := by
      refine mul_le_mul_of_nonneg_right ?_ hM0
      have := mul_le_mul_of_nonneg_left h4 (by linarith : 0 ≤ 1 + η)
      linarith

open Classical in
theorem sum_near {p q a b a' b' : E n} :
    ∃ y : E n → E n, (∀ x ∈ [p, a, q, b], y x = p ∨ y x = q ∨ y x = a' ∨ y x = b') ∧
      ∑ x ∈ [p, a, q, b].toFinset, dist x (y x) ^ 2 ≤ dist a a' ^ 2 + dist b b' ^ 2 := by
  refine ⟨fun x => if x = p then p else if x = q then q else if x = a then a' else b', fun x _ => by
    dsimp only; split_ifs <;> simp, ?_⟩
  obtain ⟨y, hy⟩ : ∃ y : E n → E n, y = fun x => if x = p then p else if x = q then q else if x = a then a' else b' := ⟨_, rfl⟩
  rw [← hy]
  have yp : dist p (y p) ^ 2 = 0 := by simp [hy]
  have yq : dist q (y q) ^ 2 = 0 := by
    by_cases hc : q = p <;> simp [hy, hc]
  have ya : dist a (y a) ^ 2 ≤ dist a a' ^ 2 := by
    by_cases h1 : a = p
    · rw [h1, yp]; positivity
    by_cases h2 : a = q
    · rw [h2, yq]; positivity
    simp [hy, h1, h2]
  by_cases hab : b = a
  · have e : [p, a, q, b].toFinset = [p, a, q].toFinset := by
      ext x; simp [hab]; tauto
    rw [e]
    have := sum_toFinset_le (fun x => dist x (y x) ^ 2) (fun x => sq_nonneg _) [p, a, q]
    simp only [List.map_cons, List.map_nil, List.sum_cons, List.sum_nil] at this
    have := sq_nonneg (dist b b')
    linarith
  · have yb : dist b (y b) ^ 2 ≤ dist b b' ^ 2 := by
      by_cases h1 : b = p
      · rw [h1, yp]; positivity
      by_cases h2 : b = q
      · rw [h2, yq]; positivity
      simp [hy, h1, h2, hab]
    have := sum_toFinset_le (fun x => dist x (y x) ^ 2) (fun x => sq_nonneg _) [p, a, q, b]
    simp only [List.map_cons, List.map_nil, List.sum_cons, List.sum_nil] at this
    linarith

/-- C108: `line.is_coplanar(other, tol=t)` under rounding.  If it answers `True`, some plane is within `t` plus the noise of
the four points `p`, `p + d`, `q`, `q + e` that span the lines; and lines that are coplanar are found so if the tolerance is
not below the noise.  (The coordinates of the directions are numbers of the format.) -/
theorem C108_is_coplanar [NeZero n] (h : StdRounding u fl) [ext : NumpyExt ℝ] [hS : StableNumpy η] (p d q e : E n)
    (hd : ∀ i, fl (d i) = d i) (he : ∀ i, fl (e i) = e i) {t : ℝ} (ht : 0 ≤ t) :
    ∃ b, @Line.isCoplanar ℝ (rounded fl) ext (some t) ⟨arr p, arr d⟩ (.line ⟨arr q, arr e⟩) = .ok b ∧
      (b = true → ∃ F : AffineSubspace ℝ (E n), Module.finrank ℝ F.direction ≤ 2 ∧
        ∀ x ∈ [p, p + d, q, q + e], ∃ y ∈ F, dist x y ≤ t + coplanarNoise u η p d q e) ∧
      (Coplanar ℝ {x | x ∈ [p, p + d, q, q + e]} → coplanarNoise u η p d q e ≤ t → b = true) := by
  classical
  obtain ⟨a, ha1, ha2⟩ := toPoint_rd h p d hd
  obtain ⟨b, hb1, hb2⟩ := toPoint_rd h q e he
  have hnoise := coplanar_noise_bound h hS.nonneg ha2 hb2
  obtain ⟨r, hr1, hr2⟩ := C105_near_flat (η := η) h (P := [p, a, q, b]) (by simp) ht
  have hrows : [arr p, arr a, arr q, arr b] = rows [p, a, q, b] := rfl
  refine ⟨decide (r ≤ 2), ?_, fun hb => ?_, fun hc hnt => ?_⟩
  · simp only [Line.isCoplanar, ha1, hb1, ok_bind, hrows, newPoints_rd (P := [p, a, q, b]) (by simp), Pts.areCoplanar, hr1, pure_ok]
  · obtain ⟨F, hF1, hF2⟩ := (hr2 2).1 (of_decide_eq_true hb)
    have e0 : 0 ≤ u * √(‖p + d‖ ^ 2 + ‖q + e‖ ^ 2) := mul_nonneg h.nonneg (Real.sqrt_nonneg _)
    have ep : ‖p + d‖ ≤ √(‖p + d‖ ^ 2 + ‖q + e‖ ^ 2) := Real.le_sqrt_of_sq_le (by have := sq_nonneg ‖q + e‖; linarith)
    have eq : ‖q + e‖ ≤ √(‖p + d‖ ^ 2 + ‖q + e‖ ^ 2) := Real.le_sqrt_of_sq_le (by have := sq_nonneg ‖p + d‖; linarith)
    have ep' := mul_le_mul_of_nonneg_left ep h.nonneg
    have eq' := mul_le_mul_of_nonneg_left eq h.nonneg
    refine ⟨F, hF1, fun x hx => ?_⟩
    simp only [List.mem_cons, List.not_mem_nil, or_false] at hx
    rcases hx with rfl | rfl | rfl | rfl
    · obtain ⟨y, hy, hy2⟩ := hF2 x (by simp)
      exact ⟨y, hy, by linarith⟩
    · obtain ⟨y, hy, hy2⟩ := hF2 a (by simp)
      refine ⟨y, hy, ?_⟩
      have := dist_triangle_left (p + d) y a
      rw [dist_eq_norm a (p + d)] at this
      linarith
    · obtain ⟨y, hy, hy2⟩ := hF2 x (by simp)
      exact ⟨y, hy, by linarith⟩
    · obtain ⟨y, hy, hy2⟩ := hF2 b (by simp)
      refine ⟨y, hy, ?_⟩
      have := dist_triangle_left (q + e) y b
      rw [dist_eq_norm b (q + e)] at this
      linarith
  · obtain ⟨F, hF1, hF2⟩ := finrank_le_of_mem (coplanar_iff_finrank_le_two.mp hc)
    obtain ⟨y, hy1, hy2⟩ := sum_near (p := p) (q := q) (a := a) (b := b) (a' := p + d) (b' := q + e)
    have e0 : 0 ≤ u * √(‖p + d‖ ^ 2 + ‖q + e‖ ^ 2) := mul_nonneg h.nonneg (Real.sqrt_nonneg _)
    refine decide_eq_true ((hr2 2).2 (by linarith) F y hF1 (fun x hx => ?_) (hy2.trans ?_))
    · rcases hy1 x hx with h1 | h1 | h1 | h1 <;> rw [h1] <;> exact hF2 _ (by simp)
    · have e1 : u * √(‖p + d‖ ^ 2 + ‖q + e‖ ^ 2) ≤ t - rankNoise u η [p, a, q, b].toFinset := by linarith
      refine le_trans ?_ (pow_le_pow_left₀ e0 e1 2)
      rw [mul_pow, Real.sq_sqrt (by positivity), mul_add, dist_eq_norm, dist_eq_norm, ← mul_pow, ← mul_pow]
      exact add_le_add (pow_le_pow_left₀ (norm_nonneg _) ha2 2) (pow_le_pow_left₀ (norm_nonneg _) hb2 2)

/-! ## The default tolerance is below the noise -/

theorem cop_lin {L P Q R N : ℝ} (hP : 0 ≤ P) (hQ : 0 ≤ Q) (hR : 0 ≤ R) (hne : 0 < P + Q + R)
    (hL : L ≤ (1 / 10 ^ 11) ^ 2 * (11 / 9 * P + 2 / 9 * Q + R)) (hN : 1 / (3 * 2 ^ 66) * P + Q / 3 + 3 * R ≤ N) : L < N := by
  norm_num at hL hN
  rcases hP.lt_or_eq with h | h
  · linarith
  · rcases hQ.lt_or_eq with h' | h'
    · linarith
    · have : 0 < R := by linarith
      linarith

theorem cop_id (m x y z : ℝ) (hm : 3 * m = 1 + 1 / 2 ^ 33) :
    1 / (3 * 2 ^ 66) * x ^ 2 + (x + 3 * y) ^ 2 / 3 + 3 * z ^ 2 ≤
      (-m * x - y - z) ^ 2 + (-m * x - y + 2 * z) ^ 2 + ((1 - m) * x + 2 * y - z) ^ 2 := by
  have e : (-m * x - y - z) ^ 2 + (-m * x - y + 2 * z) ^ 2 + ((1 - m) * x + 2 * y - z) ^ 2 =
      (1 - 3 * m) ^ 2 / 3 * x ^ 2 + ((3 * z) ^ 2 + (x + 3 * y) ^ 2) / 3 + (3 * z - (x + 3 * y)) ^ 2 / 3 := by ring
  rw [e, hm]
  have := sq_nonneg (3 * z - (x + 3 * y))
  nlinarith

theorem cop_sq (x y z : ℝ) : x ^ 2 + y ^ 2 + z ^ 2 ≤ 11 / 9 * x ^ 2 + 2 / 9 * (x + 3 * y) ^ 2 + z ^ 2 := by
  nlinarith [sq_nonneg (2 * x + 3 * y)]

theorem cop_matrix_rank [NumpyExt ℝ] [hS : StableNumpy η] (hη : η ≤ 2⁻¹ ^ 40) {m : ℝ} (hm : 3 * m = 1 + 1 / 2 ^ 33) :
    3 ≤ NumpyExt.matrixRank (none : Option ℝ) (rows [vec3 (-m) (-1) (-1), vec3 (-m) (-1) 2, vec3 (1 - m) 2 (-1)]) := by
  have hη0 := hS.nonneg
  obtain ⟨C, hC⟩ : ∃ C : Fin 3 → E 3, C = ![vec3 (-m) (-1) (-1), vec3 (-m) (-1) 2, vec3 (1 - m) 2 (-1)] := ⟨_, rfl⟩
  have hlist : [vec3 (-m) (-1) (-1), vec3 (-m) (-1) 2, vec3 (1 - m) 2 (-1)] = List.ofFn C := by
    rw [hC]; simp [List.ofFn_succ]
  rw [hlist]
  have hf : fnorm C ≤ 4 := by
    refine le_of_sq_le_sq ?_ (by norm_num)
    rw [fnorm_sq, hC]
    simp only [Fin.sum_univ_three, Matrix.cons_val, norm_sq3]
    simp only [vec3, PiLp.toLp_apply, Matrix.cons_val]
    have h1 : m = (1 + 1 / 2 ^ 33) / 3 := by linarith
    rw [h1]
    norm_num
  obtain ⟨t, s', hs0, -, ht, h1, ⟨y, hy, h2⟩, h3⟩ := rank_core (η := η) (by norm_num) (by norm_num) C C none (δ := 0)
    (by simp only [sub_self]; exact (congrArg norm (WithLp.toLp_zero 2)).trans_le (by simp)) hf
  have h4 : s' ≤ 4 + 4 * η := by
    have e1 := rootSpread_le C 0 y
    have e2 : (WithLp.toLp 2 fun i => C i - (0 : Fin 3 → E 3) i : PiLp 2 fun _ : Fin 3 => E 3) = WithLp.toLp 2 C := by
      congr 1; funext i; simp
    rw [e2, hy, mul_one] at e1
    simp only [Pi.zero_apply, inner_zero_left, ne_eq, OfNat.ofNat_ne_zero, not_false_eq_true, zero_pow, sum_const_zero,
      Real.sqrt_zero, zero_add] at e1
    have := e1.trans hf
    linarith
  have ht' := ht rfl
  have hκ : s' * (max 3 3 : ℕ) * (2 : ℝ)⁻¹ ^ 52 ≤ 1 / 10 ^ 13 := by
    have : η ≤ 1 := hη.trans (by norm_num)
    calc s' * (max 3 3 : ℕ) * (2 : ℝ)⁻¹ ^ 52 ≤ 8 * (max 3 3 : ℕ) * (2 : ℝ)⁻¹ ^ 52 := by
          refine mul_le_mul_of_nonneg_right (mul_le_mul_of_nonneg_right ?_ (by positivity)) (by positivity)
          linarith
      _ ≤ _ := by norm_num
  have hκ0 : 0 ≤ s' * (max 3 3 : ℕ) * (2 : ℝ)⁻¹ ^ 52 := by positivity
  obtain ⟨κ, hk⟩ : ∃ κ, κ = s' * (max 3 3 : ℕ) * (2 : ℝ)⁻¹ ^ 52 := ⟨_, rfl⟩
  rw [← hk] at ht' hκ hκ0
  rw [abs_le] at ht'
  have hη' : η ≤ 1 / 10 ^ 12 := hη.trans (by norm_num)
  have ht0 : 0 ≤ t := by
    norm_num at hη'
    nlinarith
  have htau : t + (η * (4 + 0) + 0) ≤ 1 / 10 ^ 11 := by
    norm_num at hη' hκ ⊢
    nlinarith
  have := (h3 ht0).1 ⊤ fun x _ hx0 => ?_
  · rw [finrank_top, finrank_euclideanSpace_fin] at this
    exact this
  obtain ⟨τ, hτ⟩ : ∃ τ, τ = t + (η * (4 + 0) + 0) := ⟨_, rfl⟩
  have hτ0 : 0 ≤ τ := by rw [hτ]; positivity
  rw [← hτ] at htau ⊢
  have e : ∑ i, (inner ℝ (C i) x : ℝ) ^ 2 = (-m * x 0 - x 1 - x 2) ^ 2 + (-m * x 0 - x 1 + 2 * x 2) ^ 2 +
      ((1 - m) * x 0 + 2 * x 1 - x 2) ^ 2 := by
    rw [hC]
    simp only [Fin.sum_univ_three, Matrix.cons_val, inner3]
    simp only [vec3, PiLp.toLp_apply, Matrix.cons_val]
    ring
  rw [e, norm_sq3]
  have hτ2 : τ ^ 2 ≤ (1 / 10 ^ 11) ^ 2 := pow_le_pow_left₀ hτ0 htau 2
  refine cop_lin (sq_nonneg (x 0)) (sq_nonneg (x 0 + 3 * x 1)) (sq_nonneg (x 2)) ?_
    (mul_le_mul hτ2 (cop_sq _ _ _) (by positivity) (by positivity)) (cop_id m _ _ _ hm)
  by_contra hcon
  have q0 := sq_nonneg (x 0)
  have q1 := sq_nonneg (x 0 + 3 * x 1)
  have q2 := sq_nonneg (x 2)
  have z0 : x 0 = 0 := by
    have : x 0 ^ 2 = 0 := by linarith
    simpa using this
  have z2 : x 2 = 0 := by
    have : x 2 ^ 2 = 0 := by linarith
    simpa using this
  have z1 : x 0 + 3 * x 1 = 0 := by
    have : (x 0 + 3 * x 1) ^ 2 = 0 := by linarith
    simpa using this
  apply hx0
  ext i
  fin_cases i
  · simpa using z0
  · simp only [Fin.mk_one, PiLp.zero_apply]; linarith
  · simpa using z2

theorem cop_lines [ext : NumpyExt ℝ] [hS : StableNumpy η] (hη : η ≤ 2⁻¹ ^ 40) :
    @Line.isCoplanar ℝ (rounded (leftToRight (roundNearest 53))) ext none
      ⟨arr (vec3 1000000 0 0), arr (vec3 1 3 0)⟩ (.line ⟨arr (vec3 1000000 0 0), arr (vec3 0 0 3)⟩) = .ok false := by
  have r1 : roundNearest 53 (1) = 1 := by
    refine rn53 0 4503599627370496 ?_ ?_ ?_ ?_ ?_ <;> norm_num
  have r2 : roundNearest 53 (2) = 2 := by
    refine rn53 1 4503599627370496 ?_ ?_ ?_ ?_ ?_ <;> norm_num
  have r3 : roundNearest 53 (3) = 3 := by
    refine rn53 1 6755399441055744 ?_ ?_ ?_ ?_ ?_ <;> norm_num
  have rm1 : roundNearest 53 (-1) = -1 := by
    refine rn53_neg 0 4503599627370496 ?_ ?_ ?_ ?_ ?_ <;> norm_num
  have re0 : roundNearest 53 (1000000) = 1000000 := by
    refine rn53 19 8589934592000000 ?_ ?_ ?_ ?_ ?_ <;> norm_num
  have re1 : roundNearest 53 (1000001) = 1000001 := by
    refine rn53 19 8589943181934592 ?_ ?_ ?_ ?_ ?_ <;> norm_num
  have re2 : roundNearest 53 (2000000) = 2000000 := by
    refine rn53 20 8589934592000000 ?_ ?_ ?_ ?_ ?_ <;> norm_num
  have re3 : roundNearest 53 (3000001) = 3000001 := by
    refine rn53 21 6442453091483648 ?_ ?_ ?_ ?_ ?_ <;> norm_num
  have rc : roundNearest 53 (3000001 / 3) = 8589937455311531 / 8589934592 := by
    refine rn53 19 8589937455311531 ?_ ?_ ?_ ?_ ?_ <;> norm_num
  have ra : roundNearest 53 (-(2863311531 / 8589934592)) = -(2863311531 / 8589934592) := by
    refine rn53_neg (-2) 6004799503859712 ?_ ?_ ?_ ?_ ?_ <;> norm_num
  have rb : roundNearest 53 (5726623061 / 8589934592) = 5726623061 / 8589934592 := by
    refine rn53 (-1) 6004799502811136 ?_ ?_ ?_ ?_ ?_ <;> norm_num
  obtain ⟨m, hm⟩ : ∃ m : ℝ, m = 2863311531 / 8589934592 := ⟨_, rfl⟩
  have hrank := cop_matrix_rank (η := η) hη (m := m) (by rw [hm]; norm_num)
  have hps : @newPoints ℝ (rounded (leftToRight (roundNearest 53))) [[1000000, 0, 0], [1000001, 3, 0], [1000000, 0, 0], [1000000, 0, 3]] =
      .ok [[1000000, 0, 0], [1000001, 3, 0], [1000000, 0, 0], [1000000, 0, 3]] := by
    norm_num [newPoints, isFinite_rd]
  have hu : @Pts.unique ℝ (rounded (leftToRight (roundNearest 53))) [[1000000, 0, 0], [1000001, 3, 0], [1000000, 0, 0], [1000000, 0, 3]] =
      .ok [[1000000, 0, 0], [1000000, 0, 3], [1000001, 3, 0]] := by
    norm_num [Pts.unique, npUnique, insertRow, rowEq, rowLt, newPoints, eq_rd, lt_rd, isFinite_rd]
  have hc : @Pts.centroid ℝ (rounded (leftToRight (roundNearest 53))) [[1000000, 0, 0], [1000000, 0, 3], [1000001, 3, 0]] =
      .ok [8589937455311531 / 8589934592, 1, 1] := by
    have : @Pts.colMeans ℝ (rounded (leftToRight (roundNearest 53))) [[1000000, 0, 0], [1000000, 0, 3], [1000001, 3, 0]] =
        [roundNearest 53 (roundNearest 53 (roundNearest 53 (roundNearest 53 (0 + 1000000) + 1000000) + 1000001) / ((3 : ℤ) : ℝ)),
         roundNearest 53 (roundNearest 53 (roundNearest 53 (roundNearest 53 (0 + 0) + 0) + 3) / ((3 : ℤ) : ℝ)),
         roundNearest 53 (roundNearest 53 (roundNearest 53 (roundNearest 53 (0 + 0) + 3) + 0) / ((3 : ℤ) : ℝ))] := rfl
    simp only [Pts.centroid, this]
    norm_num [re0, re1, re2, re3, rc, r1, r3, roundNearest_zero, new1D, isFinite_rd]
  have hsub : ∀ x y z x' y' z' : ℝ, @vsub ℝ (rounded (leftToRight (roundNearest 53))) [x, y, z] [x', y', z'] =
      .ok [roundNearest 53 (x - x'), roundNearest 53 (y - y'), roundNearest 53 (z - z')] := fun _ _ _ _ _ _ => rfl
  have hmc : @Pts.meanCenter ℝ (rounded (leftToRight (roundNearest 53))) [[1000000, 0, 0], [1000000, 0, 3], [1000001, 3, 0]] =
      .ok (rows [vec3 (-m) (-1) (-1), vec3 (-m) (-1) 2, vec3 (1 - m) 2 (-1)], [8589937455311531 / 8589934592, 1, 1]) := by
    simp only [Pts.meanCenter, hc, ok_bind]
    simp only [rows, List.map_cons, List.map_nil, arr_vec3, List.mapM_cons, List.mapM_nil, hsub, ok_bind, pure_ok, hm]
    norm_num [ra, rb, r1, r2, r3, rm1, roundNearest_zero]
  have ht : ∀ x y z x' y' z' : ℝ, @Line.toPoint ℝ (rounded (leftToRight (roundNearest 53))) ⟨[x, y, z], [x', y', z']⟩
      (@one ℝ (rounded (leftToRight (roundNearest 53)))) =
      .ok [roundNearest 53 (x + roundNearest 53 (((1 : ℤ) : ℝ) * x')), roundNearest 53 (y + roundNearest 53 (((1 : ℤ) : ℝ) * y')),
        roundNearest 53 (z + roundNearest 53 (((1 : ℤ) : ℝ) * z'))] := fun _ _ _ _ _ _ => rfl
  have ht1 : @Line.toPoint ℝ (rounded (leftToRight (roundNearest 53))) ⟨[1000000, 0, 0], [1, 3, 0]⟩
      (@one ℝ (rounded (leftToRight (roundNearest 53)))) = .ok [1000001, 3, 0] := by
    rw [ht]; norm_num [r1, r3, re1, roundNearest_zero]
  have ht2 : @Line.toPoint ℝ (rounded (leftToRight (roundNearest 53))) ⟨[1000000, 0, 0], [0, 0, 3]⟩
      (@one ℝ (rounded (leftToRight (roundNearest 53)))) = .ok [1000000, 0, 3] := by
    rw [ht]; norm_num [r1, r3, re0, roundNearest_zero]
  simp only [Line.isCoplanar, arr_vec3, ht1, ht2, ok_bind, hps, Pts.areCoplanar, Pts.affineRank, hu, hmc, pure_ok]
  congr 1
  rw [decide_eq_false_iff_not]
  omega

/-- C108 (defect): in binary64 arithmetic the lines through the common point `(10⁶, 0, 0)` with the directions `(1, 3, 0)` and
`(0, 0, 3)` are not found coplanar with the default tolerance, and `intersect_line`, which checks with that tolerance and
offers no other, refuses to intersect them.  So it is for every `matrix_rank` with a backward error of at most `2⁻⁴⁰`. -/
theorem C108_intersect_line_defect [ext : NumpyExt ℝ] [hS : StableNumpy η] (hη : η ≤ 2⁻¹ ^ 40) :
    vec3 1000000 0 0 ∈ lineSet (vec3 1000000 0 0) (vec3 1 3 0) ∧ vec3 1000000 0 0 ∈ lineSet (vec3 1000000 0 0) (vec3 0 0 3) ∧
    inner ℝ (vec3 1 3 0) (vec3 0 0 3) = (0 : ℝ) ∧
    @Line.isCoplanar ℝ (rounded (leftToRight (roundNearest 53))) ext none
      ⟨arr (vec3 1000000 0 0), arr (vec3 1 3 0)⟩ (.line ⟨arr (vec3 1000000 0 0), arr (vec3 0 0 3)⟩) = .ok false ∧
    @Line.intersectLine ℝ (rounded (leftToRight (roundNearest 53))) ext ⟨arr (vec3 1000000 0 0), arr (vec3 1 3 0)⟩
      ⟨arr (vec3 1000000 0 0), arr (vec3 0 0 3)⟩ true (@Tol.default ℝ (rounded (leftToRight (roundNearest 53)))) =
      .error (.valueError "The lines must be coplanar.") := by
  have hin : inner ℝ (vec3 1 3 0) (vec3 0 0 3) = (0 : ℝ) := by
    rw [inner3]; simp [vec3]
  refine ⟨⟨0, by simp⟩, ⟨0, by simp⟩, hin, cop_lines hη, ?_⟩
  obtain ⟨b, hb1, -, hb2⟩ := C77_is_parallel (n := 3) std53 (by norm_num) (vec3 1 3 0) (vec3 0 0 3)
  have hb : b = false := by
    by_contra hcon
    rcases hb2 (by simpa using hcon) with h | h | h
    · have := congrArg (fun x : E 3 => x 0) h; simp [vec3] at this
    · have := congrArg (fun x : E 3 => x 2) h; simp [vec3] at this
    · rw [cosE, hin] at h; norm_num at h
  simp only [Line.intersectLine, Line.dimension, length_arr, hb1, hb, ok_bind, cop_lines hη, pure_ok]
  simp

/-! ## The hypotheses are met -/

/-- There is a NumPy for which both theorems hold, binary64 arithmetic is a standard rounding, and the coordinates of the
directions of the example are numbers of the format. -/
example : ∃ (ext : NumpyExt ℝ) (_ : @StableNumpy 0 ext), @Line.isCoplanar ℝ (rounded (leftToRight (roundNearest 53))) ext none
      ⟨arr (vec3 1000000 0 0), arr (vec3 1 3 0)⟩ (.line ⟨arr (vec3 1000000 0 0), arr (vec3 0 0 3)⟩) = .ok false := by
  obtain ⟨ext, hl, -⟩ := exists_lawfulNumpy fun _ x => x
  have := @StableNumpy.of_lawful ext hl
  exact ⟨ext, this, cop_lines (η := 0) (by norm_num)⟩

end SkSpatial
