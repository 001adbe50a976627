import Verif.Props.RankRounded
/-! # C105: the predicates on points and the constructor of triangles, under rounding -/

namespace SkSpatial
open Finset StdRounding

variable {n : ℕ} {u η : ℝ} {fl : Arith}

theorem rankNoise_nonneg (h : StdRounding u fl) (hη : 0 ≤ η) (S : Finset (E n)) : 0 ≤ rankNoise u η S := by
  have h1u : 0 < 1 - u := by linarith [h.lt_one]
  have := one_le_inv₀ (pow_pos h1u (S.card + 2)) |>.mpr (pow_le_one₀ h1u.le (by linarith [h.nonneg]))
  refine mul_nonneg ?_ (Real.sqrt_nonneg _)
  nlinarith

open Classical in
theorem flat_iff [NeZero n] {P : List (E n)} (hP : P ≠ []) {t e : ℝ} (ht : 0 ≤ t) (he : 0 ≤ e) {r : ℕ}
    (h1 : ∀ U : Submodule ℝ (E n), (∀ x ∈ U, x ≠ 0 → (t + e) ^ 2 * ‖x‖ ^ 2 < spread P.toFinset x) → Module.finrank ℝ U ≤ r)
    (h2 : ∃ U : Submodule ℝ (E n), Module.finrank ℝ U = r ∧
        ∀ x ∈ U, x ≠ 0 → t * ‖x‖ < √(spread P.toFinset x) + e * ‖x‖) (k : ℕ) :
    (r ≤ k → ∃ F : AffineSubspace ℝ (E n), Module.finrank ℝ F.direction ≤ k ∧ ∀ x ∈ P, ∃ y ∈ F, dist x y ≤ t + e) ∧
    (e ≤ t → ∀ (F : AffineSubspace ℝ (E n)) (y : E n → E n), Module.finrank ℝ F.direction ≤ k → (∀ x ∈ P, y x ∈ F) →
      ∑ x ∈ P.toFinset, dist x (y x) ^ 2 ≤ (t - e) ^ 2 → r ≤ k) := by
  refine ⟨fun hr => flat_of_spread hP (by linarith) fun U hU => (h1 U hU).trans hr, fun hte F y hF hy hd => ?_⟩
  obtain ⟨U, hU1, hU2⟩ := h2
  refine spread_of_flat (sub_nonneg.mpr hte) hF y hy hd hP ⟨U, hU1, fun x hx hx0 => ?_⟩
  have := hU2 x hx hx0
  rw [sub_mul]; linarith

open Classical in
/-- C105: `points.affine_rank(tol=t) ≤ k` under rounding: then some flat of dimension at most `k` is within `t` plus the
noise of every point; and this is the answer if some flat of dimension at most `k` fits the distinct points with a root sum
of squares of at most `t` minus the noise.  (`y x` is any point of the flat associated with the point `x`.) -/
theorem C105_near_flat [NeZero n] (h : StdRounding u fl) [ext : NumpyExt ℝ] [hS : StableNumpy η] {P : List (E n)}
    (hP : P ≠ []) {t : ℝ} (ht : 0 ≤ t) :
    ∃ r : ℕ, @Pts.affineRank ℝ (rounded fl) ext (some t) (rows P) = .ok r ∧ ∀ k : ℕ,
      (r ≤ k → ∃ F : AffineSubspace ℝ (E n), Module.finrank ℝ F.direction ≤ k ∧
        ∀ x ∈ P, ∃ y ∈ F, dist x y ≤ t + rankNoise u η P.toFinset) ∧
      (rankNoise u η P.toFinset ≤ t → ∀ (F : AffineSubspace ℝ (E n)) (y : E n → E n), Module.finrank ℝ F.direction ≤ k →
        (∀ x ∈ P, y x ∈ F) → ∑ x ∈ P.toFinset, dist x (y x) ^ 2 ≤ (t - rankNoise u η P.toFinset) ^ 2 → r ≤ k) := by
  obtain ⟨r, h1, h2, h3⟩ := C105_affine_rank (η := η) h hP ht
  exact ⟨r, h1, fun k => flat_iff hP ht (rankNoise_nonneg h hS.nonneg _) h2 h3 k⟩

theorem finrank_le_of_mem {k : ℕ} {P : List (E n)} (hk : Module.finrank ℝ (vectorSpan ℝ {x | x ∈ P}) ≤ k) :
    ∃ F : AffineSubspace ℝ (E n), Module.finrank ℝ F.direction ≤ k ∧ ∀ x ∈ P, x ∈ F :=
  ⟨affineSpan ℝ {x | x ∈ P}, by rwa [direction_affineSpan], fun _ hx => subset_affineSpan ℝ _ hx⟩

open Classical in
/-- C105: with a tolerance of at least the noise, points that are equal are found concurrent, points on a line collinear,
and points in a plane coplanar, whatever the rounding. -/
theorem C105_degenerate [NeZero n] (h : StdRounding u fl) [ext : NumpyExt ℝ] [hS : StableNumpy η] {P : List (E n)}
    (hP : P ≠ []) {t : ℝ} (ht : rankNoise u η P.toFinset ≤ t) :
    ((∀ x ∈ P, ∀ y ∈ P, x = y) → @Pts.areConcurrent ℝ (rounded fl) ext (some t) (rows P) = .ok true) ∧
    (Collinear ℝ {x | x ∈ P} → @Pts.areCollinear ℝ (rounded fl) ext (some t) (rows P) = .ok true) ∧
    (Coplanar ℝ {x | x ∈ P} → @Pts.areCoplanar ℝ (rounded fl) ext (some t) (rows P) = .ok true) := by
  have he := rankNoise_nonneg h hS.nonneg P.toFinset
  obtain ⟨r, h1, h2⟩ := C105_near_flat (η := η) h hP (he.trans ht)
  have key : ∀ k, Module.finrank ℝ (vectorSpan ℝ {x | x ∈ P}) ≤ k → r ≤ k := by
    intro k hk
    obtain ⟨F, hF1, hF2⟩ := finrank_le_of_mem hk
    refine (h2 k).2 ht F id hF1 hF2 ?_
    simp [sq_nonneg]
  refine ⟨fun hc => ?_, fun hc => ?_, fun hc => ?_⟩
  · have : vectorSpan ℝ {x | x ∈ P} = ⊥ := by
      rw [vectorSpan_eq_bot_iff_subsingleton]
      intro x hx y hy
      exact hc x hx y hy
    have := key 0 (by rw [this]; simp)
    simp only [Pts.areConcurrent, h1, ok_bind, pure_ok]
    simp [Nat.le_zero.mp this]
  · have := key 1 (collinear_iff_finrank_le_one.mp hc)
    simp only [Pts.areCollinear, h1, ok_bind, pure_ok]
    simp [this]
  · have := key 2 (coplanar_iff_finrank_le_two.mp hc)
    simp only [Pts.areCoplanar, h1, ok_bind, pure_ok]
    simp [this]

open Classical in
/-- C105: with the tolerance `t`, points found concurrent are within `t` plus the noise of one point, points found collinear
of one line, points found coplanar of one plane. -/
theorem C105_accepted [NeZero n] (h : StdRounding u fl) [ext : NumpyExt ℝ] [hS : StableNumpy η] {P : List (E n)}
    (hP : P ≠ []) {t : ℝ} (ht : 0 ≤ t) :
    (@Pts.areConcurrent ℝ (rounded fl) ext (some t) (rows P) = .ok true →
      ∃ F : AffineSubspace ℝ (E n), Module.finrank ℝ F.direction = 0 ∧ ∀ x ∈ P, ∃ y ∈ F, dist x y ≤ t + rankNoise u η P.toFinset) ∧
    (@Pts.areCollinear ℝ (rounded fl) ext (some t) (rows P) = .ok true →
      ∃ F : AffineSubspace ℝ (E n), Module.finrank ℝ F.direction ≤ 1 ∧ ∀ x ∈ P, ∃ y ∈ F, dist x y ≤ t + rankNoise u η P.toFinset) ∧
    (@Pts.areCoplanar ℝ (rounded fl) ext (some t) (rows P) = .ok true →
      ∃ F : AffineSubspace ℝ (E n), Module.finrank ℝ F.direction ≤ 2 ∧ ∀ x ∈ P, ∃ y ∈ F, dist x y ≤ t + rankNoise u η P.toFinset) := by
  obtain ⟨r, h1, h2⟩ := C105_near_flat (η := η) h hP ht
  refine ⟨fun hc => ?_, fun hc => ?_, fun hc => ?_⟩
  · simp only [Pts.areConcurrent, h1, ok_bind, pure_ok, Except.ok.injEq, decide_eq_true_eq] at hc
    obtain ⟨F, hF, hx⟩ := (h2 0).1 hc.le
    exact ⟨F, Nat.le_zero.mp hF, hx⟩
  · simp only [Pts.areCollinear, h1, ok_bind, pure_ok, Except.ok.injEq, decide_eq_true_eq] at hc
    exact (h2 1).1 hc
  · simp only [Pts.areCoplanar, h1, ok_bind, pure_ok, Except.ok.injEq, decide_eq_true_eq] at hc
    exact (h2 2).1 hc

/-- Three points near a line: one of them is near the line through the other two. -/
theorem thin_of_near_line {F : AffineSubspace ℝ (E n)} (hF : Module.finrank ℝ F.direction ≤ 1) {a b c : E n} {w : ℝ}
    (h : ∀ x ∈ [a, b, c], ∃ y ∈ F, dist x y ≤ w) :
    (∃ l : ℝ, dist a (AffineMap.lineMap b c l) ≤ 2 * w) ∨ (∃ l : ℝ, dist b (AffineMap.lineMap c a l) ≤ 2 * w) ∨
      ∃ l : ℝ, dist c (AffineMap.lineMap a b l) ≤ 2 * w := by
  obtain ⟨a', ha, ha2⟩ := h a (by simp)
  obtain ⟨b', hb, hb2⟩ := h b (by simp)
  obtain ⟨c', hc, hc2⟩ := h c (by simp)
  obtain ⟨⟨v, hv⟩, hspan⟩ := finrank_le_one_iff.mp hF
  have hpar : ∀ x ∈ F, ∃ s : ℝ, x = a' + s • v := by
    intro x hx
    obtain ⟨s, hs⟩ := hspan ⟨x -ᵥ a', AffineSubspace.vsub_mem_direction hx ha⟩
    refine ⟨s, ?_⟩
    have := congrArg Subtype.val hs
    simp only [vsub_eq_sub] at this
    rw [show s • v = x - a' from this]; abel
  obtain ⟨β, rfl⟩ := hpar b' hb
  obtain ⟨γ, rfl⟩ := hpar c' hc
  have key : ∀ (x y z x' : E n) (r s t : ℝ), dist x (x' + r • v) ≤ w → dist y (x' + s • v) ≤ w → dist z (x' + t • v) ≤ w →
      s ≤ r → r ≤ t → ∃ l : ℝ, dist x (AffineMap.lineMap y z l) ≤ 2 * w := by
    intro x y z x' r s t hx hy hz hsr hrt
    obtain ⟨l, hl0, hl1, hl⟩ : ∃ l : ℝ, 0 ≤ l ∧ l ≤ 1 ∧ r = (1 - l) * s + l * t := by
      rcases (hsr.trans hrt).eq_or_lt with he | hlt
      · exact ⟨0, le_rfl, zero_le_one, by linarith⟩
      · refine ⟨(r - s) / (t - s), div_nonneg (by linarith) (by linarith), (div_le_one (by linarith)).mpr (by linarith), ?_⟩
        have : t - s ≠ 0 := by linarith
        field_simp
        ring
    refine ⟨l, ?_⟩
    rw [dist_eq_norm] at hx hy hz ⊢
    have e : x - AffineMap.lineMap y z l = (x - (x' + r • v)) - ((1 - l) • (y - (x' + s • v)) + l • (z - (x' + t • v))) := by
      rw [AffineMap.lineMap_apply_module, hl]; module
    rw [e]
    refine (norm_sub_le _ _).trans ?_
    have h1 := norm_add_le ((1 - l) • (y - (x' + s • v))) (l • (z - (x' + t • v)))
    rw [norm_smul, norm_smul, Real.norm_eq_abs, Real.norm_eq_abs, abs_of_nonneg hl0, abs_of_nonneg (by linarith : 0 ≤ 1 - l)] at h1
    have h2 := mul_le_mul_of_nonneg_left hy (by linarith : 0 ≤ 1 - l)
    have h3 := mul_le_mul_of_nonneg_left hz hl0
    linarith
  have ha3 : dist a (a' + (0 : ℝ) • v) ≤ w := by simpa using ha2
  have flip : ∀ x y z : E n, (∃ l : ℝ, dist x (AffineMap.lineMap y z l) ≤ 2 * w) → ∃ l : ℝ, dist x (AffineMap.lineMap z y l) ≤ 2 * w := by
    rintro x y z ⟨l, hl⟩
    exact ⟨1 - l, by rwa [AffineMap.lineMap_apply_one_sub]⟩
  rcases le_total β 0 with h1 | h1 <;> rcases le_total γ 0 with h2 | h2 <;> rcases le_total β γ with h3 | h3
  · exact .inr (.inr (flip _ _ _ (key c b a a' _ _ _ hc2 hb2 ha3 h3 h2)))
  · exact .inr (.inl (key b c a a' _ _ _ hb2 hc2 ha3 h3 h1))
  · exact .inl (key a b c a' _ _ _ ha3 hb2 hc2 h1 h2)
  · exact .inl (key a b c a' _ _ _ ha3 hb2 hc2 h1 h2)
  · exact .inl (flip _ _ _ (key a c b a' _ _ _ ha3 hc2 hb2 h2 h1))
  · exact .inl (flip _ _ _ (key a c b a' _ _ _ ha3 hc2 hb2 h2 h1))
  · exact .inr (.inl (flip _ _ _ (key b a c a' _ _ _ hb2 ha3 hc2 h1 h3)))
  · exact .inr (.inr (key c a b a' _ _ _ hc2 ha3 hb2 h2 h3))

open Classical in
/-- C105: `Triangle(a, b, c)` succeeds under rounding whenever every vertex is further than the noise from the line through
the other two. -/
theorem C105_triangle [NeZero n] (h : StdRounding u fl) [ext : NumpyExt ℝ] [hS : StableNumpy η] {a b c : E n}
    (ha : ∀ l : ℝ, triangleNoise u η a b c < dist a (AffineMap.lineMap b c l))
    (hb : ∀ l : ℝ, triangleNoise u η a b c < dist b (AffineMap.lineMap c a l))
    (hc : ∀ l : ℝ, triangleNoise u η a b c < dist c (AffineMap.lineMap a b l)) :
    @Triangle.new ℝ (rounded fl) ext (arr a) (arr b) (arr c) = .ok ⟨arr a, arr b, arr c⟩ := by
  have hη := hS.nonneg
  have hM : 0 ≤ momentNorm ({a, b, c} : Finset (E n)) := Real.sqrt_nonneg _
  have he := rankNoise_nonneg h hη ({a, b, c} : Finset (E n))
  have hw : 0 ≤ triangleNoise u η a b c := by unfold triangleNoise; positivity
  have hab : a ≠ b := by
    rintro rfl
    have h2 := ha 0
    simp at h2
    linarith
  have hbc : b ≠ c := by
    rintro rfl
    have h2 := hb 0
    simp at h2
    linarith
  have hca : c ≠ a := by
    rintro rfl
    have h2 := hc 0
    simp at h2
    linarith
  have hfin : [a, b, c].toFinset = {a, b, c} := by simp
  have hcard : ({a, b, c} : Finset (E n)).card = 3 := by
    rw [card_eq_three]; exact ⟨a, b, c, hab, hca.symm, hbc, rfl⟩
  obtain ⟨r, t, s, h1, hs0, hs, ht0, -, ht, h2, h3⟩ := C105_affine_rank_default (η := η) h (P := [a, b, c]) (by simp)
  rw [hfin] at hs ht h2 h3
  rw [hcard] at ht
  have hsM : s ≤ momentNorm ({a, b, c} : Finset (E n)) := by
    obtain ⟨x, hx1, hx2⟩ := hs.1
    have := spread_le_moment {a, b, c} hx1
    rw [← hx2, Real.sqrt_sq hs0] at this
    exact this
  have hr : ¬ r ≤ 1 := by
    intro hr
    have := (flat_iff (P := [a, b, c]) (by simp) ht0 he (by rw [hfin]; exact h2) (by rw [hfin]; exact h3) 1).1 hr
    obtain ⟨F, hF1, hF2⟩ := this
    have hle : 2 * (t + rankNoise u η ({a, b, c} : Finset (E n))) ≤ triangleNoise u η a b c := by
      unfold triangleNoise
      refine mul_le_mul_of_nonneg_left (add_le_add_left (ht.trans ?_) _) (by norm_num)
      refine mul_le_mul_of_nonneg_right (mul_le_mul_of_nonneg_right (mul_le_mul_of_nonneg_left ?_ (by linarith)) (by positivity)) (by positivity)
      linarith
    rcases thin_of_near_line hF1 hF2 with ⟨l, hl⟩ | ⟨l, hl⟩ | ⟨l, hl⟩
    · linarith [ha l]
    · linarith [hb l]
    · linarith [hc l]
  have hrows : [arr a, arr b, arr c] = rows [a, b, c] := rfl
  have hcol : @Pts.areCollinear ℝ (rounded fl) ext none (rows [a, b, c]) = .ok false := by
    simp only [Pts.areCollinear, h1, ok_bind, pure_ok]
    simp only [hr, decide_false]
  simp only [Triangle.new, new1D_rd, ok_bind, length_arr, hrows, newPoints_rd (P := [a, b, c]) (by simp), hcol]
  simp

/-! ## The default tolerance is below the noise -/

theorem far_lin {L M P Q DP BQ : ℝ} (hP : 0 ≤ P) (hQ : 0 ≤ Q) (hPQ : 0 < P + Q) (h1 : L ≤ (1 / 10 ^ 11) ^ 2 * (3 * P + 2 * Q))
    (h2 : 3 / 2 * DP - 3 * BQ ≤ M) (h3 : (3 / 10 ^ 11) ^ 2 * P ≤ DP) (h4 : BQ ≤ (1 / 10 ^ 10) ^ 2 * Q) :
    L < M + 14 / 3 * Q := by
  norm_num at h1 h3 h4
  rcases hP.lt_or_eq with h | h
  · linarith
  · have : 0 < Q := by linarith
    linarith

theorem far_sq (D p β q : ℝ) : 3 / 2 * (D ^ 2 * p ^ 2) - 3 * (β ^ 2 * q ^ 2) ≤ 3 * (D * p + β * q) ^ 2 := by
  have h1 := sq_nonneg (D * p + 2 * (β * q))
  have h2 : 3 * (D * p + β * q) ^ 2 - (3 / 2 * (D ^ 2 * p ^ 2) - 3 * (β ^ 2 * q ^ 2)) = 3 / 2 * (D * p + 2 * (β * q)) ^ 2 := by ring
  linarith

theorem far_sq2 (p q : ℝ) : p ^ 2 + (q - p) ^ 2 ≤ 3 * p ^ 2 + 2 * q ^ 2 := by nlinarith [sq_nonneg (p + q)]

theorem far_matrix_rank [NumpyExt ℝ] [hS : StableNumpy η] (hη : η ≤ 2⁻¹ ^ 40) {a b : ℝ} (ha : |a + 4 / 3| ≤ 1 / 10 ^ 10)
    (hb : |b + 4 / 3| ≤ 1 / 10 ^ 10) (hab : 3 / 10 ^ 11 ≤ |a - b|) :
    2 ≤ NumpyExt.matrixRank (none : Option ℝ) (rows [vec2 a b, vec2 (a + 1) (b + 1), vec2 (a + 3) (b + 3)]) := by
  have hη0 := hS.nonneg
  obtain ⟨C, hC⟩ : ∃ C : Fin 3 → E 2, C = ![vec2 a b, vec2 (a + 1) (b + 1), vec2 (a + 3) (b + 3)] := ⟨_, rfl⟩
  have hlist : [vec2 a b, vec2 (a + 1) (b + 1), vec2 (a + 3) (b + 3)] = List.ofFn C := by
    rw [hC]; simp [List.ofFn_succ]
  rw [hlist]
  have hf : fnorm C ≤ 4 := by
    refine le_of_sq_le_sq ?_ (by norm_num)
    rw [fnorm_sq, hC]
    simp only [Fin.sum_univ_three, Matrix.cons_val, norm_sq2]
    simp only [vec2, PiLp.toLp_apply, Matrix.cons_val]
    rw [abs_le] at ha hb
    norm_num at ha hb
    nlinarith
  obtain ⟨t, s', hs0, -, ht, h1, ⟨y, hy, h2⟩, h3⟩ := rank_core (η := η) (by norm_num) (by norm_num) C C none (δ := 0)
    (by simp only [sub_self]; exact (congrArg norm (WithLp.toLp_zero 2)).trans_le (by simp)) hf
  have h4 : s' ≤ 4 + 4 * η := by
    have e1 := rootSpread_le C 0 y
    have e2 : (WithLp.toLp 2 fun i => C i - (0 : Fin 3 → E 2) i : PiLp 2 fun _ : Fin 3 => E 2) = WithLp.toLp 2 C := by
      congr 1; funext i; simp
    rw [e2, hy, mul_one] at e1
    simp only [Pi.zero_apply, inner_zero_left, ne_eq, OfNat.ofNat_ne_zero, not_false_eq_true, zero_pow, sum_const_zero,
      Real.sqrt_zero, zero_add] at e1
    have := e1.trans hf
    linarith
  have ht' := ht rfl
  have hκ : s' * (max 3 2 : ℕ) * (2 : ℝ)⁻¹ ^ 52 ≤ 1 / 10 ^ 13 := by
    have : η ≤ 1 := hη.trans (by norm_num)
    calc s' * (max 3 2 : ℕ) * (2 : ℝ)⁻¹ ^ 52 ≤ 8 * (max 3 2 : ℕ) * (2 : ℝ)⁻¹ ^ 52 := by
          refine mul_le_mul_of_nonneg_right (mul_le_mul_of_nonneg_right ?_ (by positivity)) (by positivity)
          linarith
      _ ≤ _ := by norm_num
  have hκ0 : 0 ≤ s' * (max 3 2 : ℕ) * (2 : ℝ)⁻¹ ^ 52 := by positivity
  obtain ⟨κ, hk⟩ : ∃ κ, κ = s' * (max 3 2 : ℕ) * (2 : ℝ)⁻¹ ^ 52 := ⟨_, rfl⟩
  rw [← hk] at ht' hκ hκ0
  rw [abs_le] at ht'
  have hη' : η ≤ 1 / 10 ^ 12 := hη.trans (by norm_num)
  have ht0 : 0 ≤ t := by
    norm_num at hη'
    nlinarith
  have htau : t + (η * (4 + 0) + 0) ≤ 1 / 10 ^ 11 := by
    norm_num at hη' hκ ⊢
    nlinarith
  have := (h3 ht0).1 ⊤ fun x _ hx0 => ?_
  · rw [finrank_top, finrank_euclideanSpace_fin] at this
    exact this
  obtain ⟨τ, hτ⟩ : ∃ τ, τ = t + (η * (4 + 0) + 0) := ⟨_, rfl⟩
  have hτ0 : 0 ≤ τ := by rw [hτ]; positivity
  rw [← hτ] at htau ⊢
  have e : ∑ i, (inner ℝ (C i) x : ℝ) ^ 2 = 3 * ((a - b) * x 0 + (b + 4 / 3) * (x 0 + x 1)) ^ 2 + 14 / 3 * (x 0 + x 1) ^ 2 := by
    rw [hC]
    simp only [Fin.sum_univ_three, Matrix.cons_val, inner2]
    simp only [vec2, PiLp.toLp_apply, Matrix.cons_val]
    ring
  rw [e, norm_sq2]
  obtain ⟨p, hp⟩ : ∃ p, p = x 0 := ⟨_, rfl⟩
  obtain ⟨q, hq⟩ : ∃ q, q = x 0 + x 1 := ⟨_, rfl⟩
  have hx1 : x 1 = q - p := by rw [hp, hq]; ring
  rw [← hq, hx1, ← hp]
  have hne : 0 < p ^ 2 + q ^ 2 := by
    by_contra hcon
    have h1 : p ^ 2 = 0 := by nlinarith [sq_nonneg p, sq_nonneg q]
    have h2 : q ^ 2 = 0 := by nlinarith [sq_nonneg p, sq_nonneg q]
    have h1' : p = 0 := by simpa using h1
    have h2' : q = 0 := by simpa using h2
    apply hx0
    ext i
    fin_cases i
    · simpa [hp] using h1'
    · simp only [Fin.mk_one, PiLp.zero_apply]; rw [hx1, h1', h2']; ring
  obtain ⟨D, hD⟩ : ∃ D, D = a - b := ⟨_, rfl⟩
  obtain ⟨β, hβ⟩ : ∃ β, β = b + 4 / 3 := ⟨_, rfl⟩
  rw [← hD] at hab ⊢
  rw [← hβ] at hb ⊢
  have hD2 : (3 / 10 ^ 11) ^ 2 ≤ D ^ 2 := by rw [← sq_abs D]; exact pow_le_pow_left₀ (by norm_num) hab 2
  have hβ2 : β ^ 2 ≤ (1 / 10 ^ 10) ^ 2 := by rw [← sq_abs β]; exact pow_le_pow_left₀ (abs_nonneg _) hb 2
  have hτ2 : τ ^ 2 ≤ (1 / 10 ^ 11) ^ 2 := pow_le_pow_left₀ hτ0 htau 2
  have s1 : 3 / 2 * (D ^ 2 * p ^ 2) - 3 * (β ^ 2 * q ^ 2) ≤ 3 * (D * p + β * q) ^ 2 := by
    exact far_sq _ _ _ _
  have s2 : p ^ 2 + (q - p) ^ 2 ≤ 3 * p ^ 2 + 2 * q ^ 2 := far_sq2 _ _
  have s3 : τ ^ 2 * (p ^ 2 + (q - p) ^ 2) ≤ (1 / 10 ^ 11) ^ 2 * (3 * p ^ 2 + 2 * q ^ 2) :=
    mul_le_mul hτ2 s2 (by positivity) (by positivity)
  have s4 := mul_le_mul_of_nonneg_right hD2 (sq_nonneg p)
  have s5 := mul_le_mul_of_nonneg_right hβ2 (sq_nonneg q)
  exact far_lin (sq_nonneg p) (sq_nonneg q) hne s3 s1 s4 s5

theorem far_collinear [ext : NumpyExt ℝ] [hS : StableNumpy η] (hη : η ≤ 2⁻¹ ^ 40) :
    @Pts.areCollinear ℝ (rounded (leftToRight (roundNearest 53))) ext none
      (rows [vec2 1000000 0, vec2 1000001 1, vec2 1000003 3]) = .ok false := by
  have rc : roundNearest 53 (3000004 / 3) = 8589946045246123 / 8589934592 := by
    refine rn53 19 8589946045246123 ?_ ?_ ?_ ?_ ?_ <;> norm_num
  have rd : roundNearest 53 (4 / 3) = 6004799503160661 / 4503599627370496 := by
    refine rn53 0 6004799503160661 ?_ ?_ ?_ ?_ ?_ <;> norm_num
  have ra0 : roundNearest 53 (-(11453246123 / 8589934592)) = -(11453246123 / 8589934592) := by
    refine rn53_neg 0 6004799503335424 ?_ ?_ ?_ ?_ ?_ <;> norm_num
  have rb0 : roundNearest 53 (-(6004799503160661 / 4503599627370496)) = -(6004799503160661 / 4503599627370496) := by
    refine rn53_neg 0 6004799503160661 ?_ ?_ ?_ ?_ ?_ <;> norm_num
  have ra1 : roundNearest 53 (-(2863311531 / 8589934592)) = -(2863311531 / 8589934592) := by
    refine rn53_neg (-2) 6004799503859712 ?_ ?_ ?_ ?_ ?_ <;> norm_num
  have rb1 : roundNearest 53 (-(1501199875790165 / 4503599627370496)) = -(1501199875790165 / 4503599627370496) := by
    refine rn53_neg (-2) 6004799503160660 ?_ ?_ ?_ ?_ ?_ <;> norm_num
  have ra2 : roundNearest 53 (14316557653 / 8589934592) = 14316557653 / 8589934592 := by
    refine rn53 0 7505999378776064 ?_ ?_ ?_ ?_ ?_ <;> norm_num
  have rb2 : roundNearest 53 (7505999378950827 / 4503599627370496) = 7505999378950827 / 4503599627370496 := by
    refine rn53 0 7505999378950827 ?_ ?_ ?_ ?_ ?_ <;> norm_num
  have re0 : roundNearest 53 (1000000) = 1000000 := by
    refine rn53 19 8589934592000000 ?_ ?_ ?_ ?_ ?_ <;> norm_num
  have re1 : roundNearest 53 (2000001) = 2000001 := by
    refine rn53 20 8589938886967296 ?_ ?_ ?_ ?_ ?_ <;> norm_num
  have re2 : roundNearest 53 (3000004) = 3000004 := by
    refine rn53 21 6442459533934592 ?_ ?_ ?_ ?_ ?_ <;> norm_num
  have re3 : roundNearest 53 (1) = 1 := by
    refine rn53 0 4503599627370496 ?_ ?_ ?_ ?_ ?_ <;> norm_num
  have re4 : roundNearest 53 (4) = 4 := by
    refine rn53 2 4503599627370496 ?_ ?_ ?_ ?_ ?_ <;> norm_num
  have hrank := far_matrix_rank (η := η) hη (a := -11453246123 / 8589934592) (b := -6004799503160661 / 4503599627370496)
    (by norm_num [abs_le]) (by norm_num [abs_le]) (by rw [le_abs]; norm_num)
  have hu : @Pts.unique ℝ (rounded (leftToRight (roundNearest 53))) (rows [vec2 1000000 0, vec2 1000001 1, vec2 1000003 3]) =
      .ok (rows [vec2 1000000 0, vec2 1000001 1, vec2 1000003 3]) := by
    have h2 : ∀ x y : ℝ, arr (vec2 x y) = [x, y] := fun x y => by simp [arr, vec2, List.ofFn_succ]
    simp only [rows, List.map_cons, List.map_nil, h2]
    norm_num [Pts.unique, npUnique, insertRow, rowEq, rowLt, newPoints, eq_rd, lt_rd, isFinite_rd]
  have hc : @Pts.centroid ℝ (rounded (leftToRight (roundNearest 53))) (rows [vec2 1000000 0, vec2 1000001 1, vec2 1000003 3]) =
      .ok (arr (vec2 (8589946045246123 / 8589934592) (6004799503160661 / 4503599627370496))) := by
    have : @Pts.colMeans ℝ (rounded (leftToRight (roundNearest 53))) [[1000000, 0], [1000001, 1], [1000003, 3]] =
        [roundNearest 53 (roundNearest 53 (roundNearest 53 (roundNearest 53 (0 + 1000000) + 1000001) + 1000003) / ((3 : ℤ) : ℝ)),
         roundNearest 53 (roundNearest 53 (roundNearest 53 (roundNearest 53 (0 + 0) + 1) + 3) / ((3 : ℤ) : ℝ))] := rfl
    simp only [rows, List.map_cons, List.map_nil, arr_vec2, Pts.centroid, this]
    norm_num [re0, re1, re2, re3, re4, rc, rd, roundNearest_zero, new1D, isFinite_rd]
  have hsub : ∀ x y x' y' : ℝ, @vsub ℝ (rounded (leftToRight (roundNearest 53))) [x, y] [x', y'] =
      .ok [roundNearest 53 (x - x'), roundNearest 53 (y - y')] := fun _ _ _ _ => rfl
  have hm : @Pts.meanCenter ℝ (rounded (leftToRight (roundNearest 53))) (rows [vec2 1000000 0, vec2 1000001 1, vec2 1000003 3]) =
      .ok (rows [vec2 (-11453246123 / 8589934592) (-6004799503160661 / 4503599627370496),
        vec2 (-11453246123 / 8589934592 + 1) (-6004799503160661 / 4503599627370496 + 1),
        vec2 (-11453246123 / 8589934592 + 3) (-6004799503160661 / 4503599627370496 + 3)],
        arr (vec2 (8589946045246123 / 8589934592) (6004799503160661 / 4503599627370496))) := by
    simp only [Pts.meanCenter, hc, ok_bind]
    simp only [rows, List.map_cons, List.map_nil, arr_vec2, List.mapM_cons, List.mapM_nil, hsub, ok_bind, pure_ok]
    norm_num [ra0, ra1, ra2, rb0, rb1, rb2]
  simp only [Pts.areCollinear, Pts.affineRank, hu, ok_bind, hm, pure_ok]
  congr 1
  rw [decide_eq_false_iff_not]
  omega

/-- C105 (defect): with the default tolerance the points `(10⁶, 0)`, `(10⁶+1, 1)`, `(10⁶+3, 3)`, which lie on a line, are
not found collinear in binary64 arithmetic, and `Triangle` accepts them: the rounding of the centroid puts it off the line by
more than the tolerance allows.  So it is for every `matrix_rank` with a backward error of at most `2⁻⁴⁰`. -/
theorem C105_collinear_defect [ext : NumpyExt ℝ] [hS : StableNumpy η] (hη : η ≤ 2⁻¹ ^ 40) :
    Collinear ℝ {x | x ∈ [vec2 1000000 0, vec2 1000001 1, vec2 1000003 3]} ∧
    @Pts.areCollinear ℝ (rounded (leftToRight (roundNearest 53))) ext none
      (rows [vec2 1000000 0, vec2 1000001 1, vec2 1000003 3]) = .ok false ∧
    ∃ T, @Triangle.new ℝ (rounded (leftToRight (roundNearest 53))) ext (arr (vec2 1000000 0)) (arr (vec2 1000001 1))
      (arr (vec2 1000003 3)) = .ok T := by
  refine ⟨?_, far_collinear hη, ⟨arr (vec2 1000000 0), arr (vec2 1000001 1), arr (vec2 1000003 3)⟩, ?_⟩
  · rw [collinear_iff_of_mem (p₀ := vec2 1000000 0) (by simp)]
    refine ⟨vec2 1 1, fun p hp => ?_⟩
    simp only [List.mem_cons, List.not_mem_nil, or_false, Set.mem_ofPred_eq] at hp
    rcases hp with rfl | rfl | rfl
    · exact ⟨0, by ext i; fin_cases i <;> simp [vec2]⟩
    · exact ⟨1, by ext i; fin_cases i <;> norm_num [vec2]⟩
    · exact ⟨3, by ext i; fin_cases i <;> norm_num [vec2]⟩
  · have hrows : [arr (vec2 1000000 0), arr (vec2 1000001 1), arr (vec2 1000003 3)] =
      rows [vec2 1000000 0, vec2 1000001 1, vec2 1000003 3] := rfl
    simp only [Triangle.new, new1D_rd, ok_bind, length_arr, hrows,
      newPoints_rd (P := [vec2 1000000 0, vec2 1000001 1, vec2 1000003 3]) (by simp), far_collinear hη]
    simp

/-! ## The hypotheses are met -/

/-- There is a backward stable NumPy (even an exact one), and the noise of the points `(0, 0)`, `(4, 0)`, `(0, 3)` is below
`1e-12`, so that `C105_degenerate` applies to them with that tolerance and `C105_triangle` to the triangle. -/
example : ∃ ext : NumpyExt ℝ, @StableNumpy 0 ext := by
  obtain ⟨ext, hl, -⟩ := exists_lawfulNumpy fun _ x => x
  exact ⟨ext, @StableNumpy.of_lawful ext hl⟩

open Classical in
theorem noise_345 : rankNoise ((2 : ℝ)⁻¹ ^ 53) 0 ([vec2 0 0, vec2 4 0, vec2 0 3] : List (E 2)).toFinset ≤ 1 / 10 ^ 12 ∧
    triangleNoise ((2 : ℝ)⁻¹ ^ 53) 0 (vec2 0 0) (vec2 4 0) (vec2 0 3) ≤ 1 / 10 ^ 11 := by
  have h1 : vec2 0 0 ≠ vec2 4 0 := fun e => by have := congrArg (fun x : E 2 => x 0) e; simp [vec2] at this
  have h2 : vec2 0 0 ≠ vec2 0 3 := fun e => by have := congrArg (fun x : E 2 => x 1) e; simp [vec2] at this
  have h3 : vec2 4 0 ≠ vec2 0 3 := fun e => by have := congrArg (fun x : E 2 => x 1) e; simp [vec2] at this
  have hM : momentNorm ({vec2 0 0, vec2 4 0, vec2 0 3} : Finset (E 2)) = 5 := by
    have : (∑ q ∈ ({vec2 0 0, vec2 4 0, vec2 0 3} : Finset (E 2)), ‖q‖ ^ 2) = 5 ^ 2 := by
      rw [sum_insert (by simp [h1, h2]), sum_insert (by simp [h3]), sum_singleton]
      simp only [norm_sq2, vec2, PiLp.toLp_apply, Matrix.cons_val]
      norm_num
    rw [momentNorm, this]
    exact Real.sqrt_sq (by norm_num)
  have hcard : ({vec2 0 0, vec2 4 0, vec2 0 3} : Finset (E 2)).card = 3 := by
    rw [card_eq_three]; exact ⟨_, _, _, h1, h2, h3, rfl⟩
  have he : rankNoise ((2 : ℝ)⁻¹ ^ 53) 0 ({vec2 0 0, vec2 4 0, vec2 0 3} : Finset (E 2)) ≤ 1 / 10 ^ 12 := by
    rw [rankNoise, hcard, hM]
    norm_num
  refine ⟨by simpa using he, ?_⟩
  rw [triangleNoise, hM]
  have : (1 + (0 : ℝ)) * (5 + rankNoise ((2 : ℝ)⁻¹ ^ 53) 0 ({vec2 0 0, vec2 4 0, vec2 0 3} : Finset (E 2))) * (max 3 2 : ℕ) * (2 : ℝ)⁻¹ ^ 52 ≤
      (1 + (0 : ℝ)) * (5 + 1) * (max 3 2 : ℕ) * (2 : ℝ)⁻¹ ^ 52 := by
    refine mul_le_mul_of_nonneg_right (mul_le_mul_of_nonneg_right (mul_le_mul_of_nonneg_left ?_ (by norm_num)) (by positivity)) (by positivity)
    norm_num at he ⊢
    linarith
  norm_num at this he ⊢
  linarith

theorem far_345 (l : ℝ) : (1 : ℝ) < dist (vec2 0 0) (AffineMap.lineMap (vec2 4 0) (vec2 0 3) l) ∧
    (1 : ℝ) < dist (vec2 4 0) (AffineMap.lineMap (vec2 0 3) (vec2 0 0) l) ∧
    (1 : ℝ) < dist (vec2 0 3) (AffineMap.lineMap (vec2 0 0) (vec2 4 0) l) := by
  have key : ∀ x : E 2, 1 < x 0 ^ 2 + x 1 ^ 2 → 1 < ‖x‖ := by
    intro x hx
    rw [← norm_sq2] at hx
    by_contra hc
    have := pow_le_one₀ (n := 2) (norm_nonneg x) (not_lt.mp hc)
    linarith
  simp only [dist_eq_norm]
  refine ⟨key _ ?_, key _ ?_, key _ ?_⟩ <;>
    simp only [AffineMap.lineMap_apply_module, PiLp.sub_apply, PiLp.add_apply, PiLp.smul_apply, vec2, PiLp.toLp_apply,
      Matrix.cons_val, smul_eq_mul] <;> nlinarith [sq_nonneg (l - 16 / 25), sq_nonneg l, sq_nonneg (1 - l)]

/-- The triangle `(0, 0)`, `(4, 0)`, `(0, 3)` is accepted in binary64, with an exact `matrix_rank`. -/
example (ext : NumpyExt ℝ) (h : @LawfulNumpy ext) : @Triangle.new ℝ (rounded (leftToRight (roundNearest 53))) ext
    (arr (vec2 0 0)) (arr (vec2 4 0)) (arr (vec2 0 3)) = .ok ⟨arr (vec2 0 0), arr (vec2 4 0), arr (vec2 0 3)⟩ := by
  have := @StableNumpy.of_lawful ext h
  have hn := noise_345.2
  have h1 : triangleNoise ((2 : ℝ)⁻¹ ^ 53) 0 (vec2 0 0) (vec2 4 0) (vec2 0 3) < 1 := lt_of_le_of_lt hn (by norm_num)
  have hs : StdRounding ((2 : ℝ)⁻¹ ^ 53) (leftToRight (roundNearest 53)) := by
    have := std53
    rwa [show (2 : ℝ) ^ (-(53 : ℕ) : ℤ) = (2 : ℝ)⁻¹ ^ 53 by norm_num] at this
  exact C105_triangle (η := 0) hs (fun l => h1.trans (far_345 l).1) (fun l => h1.trans (far_345 l).2.1)
    (fun l => h1.trans (far_345 l).2.2)

end SkSpatial
