import Verif.Props.Rounding18
/-! # C112: intersections of finite cylinders with lines under rounding -/

namespace SkSpatial
open StdRounding

variable {u : ℝ} {fl : Arith} {n : ℕ}

/-! ## The decision whether a cap is hit -/

/-- Between a point of a line within the radius and one outside there is one at the radius. -/
theorem rad_ivt (P v : E 3) {r s t : ℝ} (h1 : ‖P + s • v‖ ≤ r) (h2 : r ≤ ‖P + t • v‖) : ∃ k ∈ Set.uIcc s t, ‖P + k • v‖ = r := by
  have hc : ContinuousOn (fun k : ℝ => ‖P + k • v‖) (Set.uIcc s t) := by fun_prop
  obtain ⟨k, hk, e⟩ := intermediate_value_uIcc hc (Set.mem_uIcc.mpr (Or.inl ⟨h1, h2⟩))
  exact ⟨k, hk, e⟩

theorem rad_far (P v : E 3) {r s : ℝ} (hr : 0 < r) (hv : 9 / 10 ≤ ‖v‖) (h1 : ‖P + s • v‖ ≤ r) :
    ∃ k, |k - s| ≤ 3 * r ∧ ‖P + k • v‖ = r := by
  have h2 : r ≤ ‖P + (s + 3 * r) • v‖ := by
    have e : P + (s + 3 * r) • v = (3 * r) • v + (P + s • v) := by module
    have := norm_sub_le ((3 * r) • v + (P + s • v)) (P + s • v)
    rw [add_sub_cancel_right, norm_smul, Real.norm_eq_abs, abs_of_pos (by linarith : 0 < 3 * r), ← e] at this
    nlinarith
  obtain ⟨k, hk, e⟩ := rad_ivt P v h1 h2
  rw [Set.uIcc_of_le (by linarith)] at hk
  exact ⟨k, by rw [abs_le]; constructor <;> linarith [hk.1, hk.2], e⟩

theorem lin_between {A B s t k : ℝ} (h0 : A + B * t = 0) (hk : k ∈ Set.uIcc s t) : |A + B * k| ≤ |A + B * s| := by
  have hA : A = -B * t := by linarith
  rw [hA, show -B * t + B * k = B * (k - t) by ring, show -B * t + B * s = B * (s - t) by ring, abs_mul, abs_mul]
  refine mul_le_mul_of_nonneg_left ?_ (abs_nonneg B)
  rcases Set.mem_uIcc.mp hk with h | h
  · rw [abs_of_nonpos (by linarith : k - t ≤ 0), abs_of_nonpos (by linarith : s - t ≤ 0)]; linarith
  · rw [abs_of_nonneg (by linarith : 0 ≤ k - t), abs_of_nonneg (by linarith : 0 ≤ s - t)]; linarith

/-- A line that does not come near the rim of a cap: whether it hits the cap can be decided with a slightly wrong height `A + B t`. -/
theorem cap_decide {P v : E 3} {h₀ c A B r α β ζ G : ℝ} (hr : 0 < r) (hv : ‖v‖ ^ 2 = 1 - c ^ 2) (hA : |A - h₀| ≤ α) (hB : |B - c| ≤ β)
    (hβ : β ≤ 1 / 100) (hG : ∀ t : ℝ, |t| ≤ G + ‖P + t • v‖ + |h₀ + c * t|) (hG0 : 0 ≤ G) (hζ : 3 * (α + β * (G + r)) ≤ ζ)
    (hR : ∀ t : ℝ, ¬ (|h₀ + c * t| ≤ ζ ∧ |‖P + t • v‖ - r| ≤ ζ)) :
    (B = 0 → ¬ ∃ t : ℝ, h₀ + c * t = 0 ∧ ‖P + t • v‖ ≤ r) ∧
    (∀ T, A + B * T = 0 → |h₀ + c * T| ≤ ζ → ‖P + T • v‖ ≤ r + ζ → c ≠ 0 ∧ ∃ t : ℝ, h₀ + c * t = 0 ∧ ‖P + t • v‖ ≤ r) ∧
    (∀ T, A + B * T = 0 → (∃ t : ℝ, h₀ + c * t = 0 ∧ ‖P + t • v‖ ≤ r) →
      |h₀ + c * T| ≤ 102 / 100 * (α + β * (G + r)) ∧ ‖P + T • v‖ < r - ζ) := by
  have hα0 : 0 ≤ α := (abs_nonneg _).trans hA
  have hβ0 : 0 ≤ β := (abs_nonneg _).trans hB
  have hGr : 0 ≤ β * (G + r) := by positivity
  have hdiff : ∀ t : ℝ, |h₀ + c * t| ≤ |A + B * t| + (α + β * |t|) := by
    intro t
    have e : h₀ + c * t = (A + B * t) - ((A - h₀) + (B - c) * t) := by ring
    rw [e]
    refine (abs_sub _ _).trans (add_le_add le_rfl ((abs_add_le _ _).trans (add_le_add hA ?_)))
    rw [abs_mul]; exact mul_le_mul_of_nonneg_right hB (abs_nonneg t)
  have hdiff' : ∀ t : ℝ, |A + B * t| ≤ |h₀ + c * t| + (α + β * |t|) := by
    intro t
    have e : A + B * t = (h₀ + c * t) + ((A - h₀) + (B - c) * t) := by ring
    rw [e]
    refine (abs_add_le _ _).trans (add_le_add le_rfl ((abs_add_le _ _).trans (add_le_add hA ?_)))
    rw [abs_mul]; exact mul_le_mul_of_nonneg_right hB (abs_nonneg t)
  refine ⟨?_, ?_, ?_⟩
  · rintro rfl ⟨t, ht, htr⟩
    have hc : |c| ≤ β := by simpa using hB
    have hv9 : 9 / 10 ≤ ‖v‖ := by
      have : c ^ 2 ≤ (1 / 100) ^ 2 := by rw [← sq_abs]; exact pow_le_pow_left₀ (abs_nonneg c) (hc.trans hβ) 2
      refine le_of_sq_le_sq ?_ (norm_nonneg v)
      rw [hv]; norm_num at this ⊢; linarith
    obtain ⟨k, hk, hkr⟩ := rad_far P v hr hv9 htr
    refine hR k ⟨?_, by rw [hkr, sub_self, abs_zero]; nlinarith⟩
    have e : h₀ + c * k = c * (k - t) := by linear_combination ht
    rw [e, abs_mul]
    have := mul_le_mul hc hk (abs_nonneg _) hβ0
    nlinarith [mul_nonneg hβ0 hG0]
  · intro T hT h1 h2
    have hT1 : ‖P + T • v‖ ≤ r := by
      by_contra hcon
      rw [not_le] at hcon
      exact hR T ⟨h1, by rw [abs_of_pos (by linarith)]; linarith⟩
    have hζ0 : 0 ≤ ζ := (abs_nonneg _).trans h1
    have hc : c ≠ 0 := by
      rintro rfl
      have hv9 : 9 / 10 ≤ ‖v‖ := by
        refine le_of_sq_le_sq ?_ (norm_nonneg v)
        rw [hv]; norm_num
      obtain ⟨k, -, hkr⟩ := rad_far P v hr hv9 hT1
      refine hR k ⟨by simpa using h1, by rw [hkr, sub_self, abs_zero]; exact hζ0⟩
    refine ⟨hc, -h₀ / c, by field_simp; ring, ?_⟩
    by_contra hcon
    obtain ⟨k, hk, hkr⟩ := rad_ivt P v hT1 (not_le.mp hcon).le
    refine hR k ⟨(lin_between (by field_simp; ring) hk).trans h1, by rw [hkr, sub_self, abs_zero]; exact hζ0⟩
  · rintro T hT ⟨t, ht, htr⟩
    have ht1 : |t| ≤ G + r := by have := hG t; rw [ht, abs_zero] at this; linarith
    have hAt : |A + B * t| ≤ α + β * (G + r) := by
      have := hdiff' t
      rw [ht, abs_zero, zero_add] at this
      exact this.trans (by gcongr)
    have hT1 : ‖P + T • v‖ ≤ r := by
      by_contra hcon
      obtain ⟨k, hk, hkr⟩ := rad_ivt P v htr (not_le.mp hcon).le
      refine hR k ⟨?_, by rw [hkr, sub_self, abs_zero]; nlinarith⟩
      have h1 := lin_between hT hk
      have h2 := hdiff k
      have h3 := hG k
      rw [hkr] at h3
      have h4 := mul_le_mul_of_nonneg_left h3 hβ0
      have h5 := mul_le_mul_of_nonneg_right hβ (abs_nonneg (h₀ + c * k))
      nlinarith
    have h2 := hdiff T
    rw [hT, abs_zero, zero_add] at h2
    have h3 := hG T
    have h4 := mul_le_mul_of_nonneg_left h3 hβ0
    have h5 := mul_le_mul_of_nonneg_right hβ (abs_nonneg (h₀ + c * T))
    have h6 : β * ‖P + T • v‖ ≤ β * r := mul_le_mul_of_nonneg_left hT1 hβ0
    have h7 : |h₀ + c * T| ≤ 102 / 100 * (α + β * (G + r)) := by
      have : β * (G + ‖P + T • v‖ + |h₀ + c * T|) = β * G + β * ‖P + T • v‖ + β * |h₀ + c * T| := by ring
      nlinarith
    refine ⟨h7, ?_⟩
    by_contra hcon
    refine hR T ⟨by nlinarith, ?_⟩
    rw [abs_of_nonpos (by linarith)]; linarith

/-- `_intersect_cap` under rounding: the returned point is where a slightly wrong height `A + B t` is zero. -/
theorem cap_calc (h : StdRounding u fl) (hu : u ≤ 1 / 10 ^ 5) {p c a q d : E 3} (ha : a ≠ 0) (hd : d ≠ 0) (r : ℝ) :
    ∃ A B : ℝ, |A - inner ℝ (q - c) (‖a‖⁻¹ • a)| ≤ 12 * u * ‖q - c‖ ∧ |B - inner ℝ (‖d‖⁻¹ • d) (‖a‖⁻¹ • a)| ≤ 10 * u ∧
      (B = 0 → @Cylinder.intersectCap ℝ (rounded fl) ⟨arr p, arr a, r⟩ ⟨arr q, arr d⟩ ⟨arr c, arr a⟩ = .ok none) ∧
      (B ≠ 0 → ∃ (T g : ℝ) (y : E 3), A + B * T = 0 ∧ ‖y - (q + T • ‖d‖⁻¹ • d)‖ ≤ u * (2 * ‖q‖ + 5 * |T|) ∧ |g - dist y c| ≤ 8 * u * dist y c ∧
        @Cylinder.intersectCap ℝ (rounded fl) ⟨arr p, arr a, r⟩ ⟨arr q, arr d⟩ ⟨arr c, arr a⟩ = .ok (if g ≤ r then some (arr y) else none)) := by
  classical
  have hu0 := h.nonneg
  have hε := h.eps_nonneg
  have hu1 : u ≤ 1 / 100000 := by norm_num at hu ⊢; exact hu
  have hn : 0 < ‖a‖ := norm_pos_iff.mpr ha
  have hdn : 0 < ‖d‖ := norm_pos_iff.mpr hd
  obtain ⟨w, hw, cw⟩ := from_crp h c q
  obtain ⟨N', hN'⟩ : ∃ N', N' = @dotv ℝ (rounded fl) (arr a) (arr w) := ⟨_, rfl⟩
  obtain ⟨D', hD'⟩ : ∃ D', D' = @dotv ℝ (rounded fl) (arr a) (arr d) := ⟨_, rfl⟩
  have eN := h.dotv_abs' le_rfl zero_le_one (CRP.refl (eps u) a) cw
  have eD := h.dotv_abs' le_rfl le_rfl (CRP.refl (eps u) a) (CRP.refl (eps u) d)
  rw [← hN', show (0 + 1 + 1 + (3 : ℕ) : ℝ) = 5 by norm_num] at eN
  rw [← hD', show (0 + 0 + 1 + (3 : ℕ) : ℝ) = 4 by norm_num] at eD
  have x5 : Real.exp (5 * eps u) - 1 ≤ 2 * 5 * u := exp_eps_le2 h (by norm_num) (by linarith)
  have x4 : Real.exp (4 * eps u) - 1 ≤ 2 * 4 * u := exp_eps_le2 h (by norm_num) (by linarith)
  have x1 : Real.exp (1 * eps u) - 1 ≤ 2 * 1 * u := exp_eps_le2 h le_rfl (by linarith)
  obtain ⟨δ, hδ, eδ⟩ := fl_delta h (-N' / D')
  have hAN : |N' / ‖a‖ - inner ℝ (q - c) (‖a‖⁻¹ • a)| ≤ 10 * u * ‖q - c‖ := by
    rw [real_inner_smul_right, real_inner_comm, show N' / ‖a‖ - ‖a‖⁻¹ * inner ℝ a (q - c) = (N' - inner ℝ a (q - c)) / ‖a‖ by field_simp,
      abs_div, abs_of_pos hn, div_le_iff₀ hn]
    refine eN.trans ?_
    have := mul_le_mul_of_nonneg_right x5 (by positivity : 0 ≤ ‖a‖ * ‖q - c‖)
    linarith
  have hI : |(inner ℝ (q - c) (‖a‖⁻¹ • a) : ℝ)| ≤ ‖q - c‖ := by
    have := abs_real_inner_le_norm (q - c) (‖a‖⁻¹ • a)
    rwa [norm_unit ha, mul_one] at this
  refine ⟨N' / ‖a‖ * (1 + δ), D' / (‖a‖ * ‖d‖), ?_, ?_, ?_, ?_⟩
  · have := delta_near hu hAN hI hδ
    have : 0 ≤ u * ‖q - c‖ := by positivity
    linarith
  · rw [real_inner_smul_right, real_inner_smul_left, real_inner_comm,
      show D' / (‖a‖ * ‖d‖) - ‖a‖⁻¹ * (‖d‖⁻¹ * inner ℝ a d) = (D' - inner ℝ a d) / (‖a‖ * ‖d‖) by field_simp,
      abs_div, abs_of_pos (by positivity : 0 < ‖a‖ * ‖d‖), div_le_iff₀ (by positivity)]
    refine eD.trans ?_
    have := mul_le_mul_of_nonneg_right x4 (by positivity : 0 ≤ ‖a‖ * ‖d‖)
    have : 0 ≤ u * (‖a‖ * ‖d‖) := by positivity
    linarith
  · intro hB
    have hD0 : D' = 0 := by
      rcases div_eq_zero_iff.mp hB with h0 | h0
      · exact h0
      · exact absurd h0 (by positivity)
    simp only [Cylinder.intersectCap, wrapped_rd, Plane.intersectLine, Vec.isPerpendicular, dot_rd, ok_bind, ← hD', isclose_zero_rd h (by linarith : u ≤ 1 / 2),
      hD0, decide_true, if_true]
  · intro hB
    have hD0 : D' ≠ 0 := by rintro rfl; simp at hB
    obtain ⟨m, hm, hmi⟩ := smul_rd (fl := fl) (fl (-N' / D')) d
    obtain ⟨y, hy, hyi⟩ := vadd_rd (fl := fl) q m
    obtain ⟨g, hg, gr⟩ := distancePoint_rp h y c
    have hg' := gr.abs_sub_le
    rw [abs_of_nonneg dist_nonneg, show (((3 : ℕ) + 5) / 2 : ℝ) = 4 by norm_num] at hg'
    refine ⟨fl (-N' / D') * ‖d‖, g, y, ?_, ?_, hg'.trans ?_, ?_⟩
    · rw [eδ]; field_simp; ring
    · obtain ⟨T, hT⟩ : ∃ T, T = fl (-N' / D') * ‖d‖ := ⟨_, rfl⟩
      have hTe : T • ‖d‖⁻¹ • d = fl (-N' / D') • d := by rw [hT, smul_smul, mul_assoc, mul_inv_cancel₀ hdn.ne', mul_one]
      have hcm : CRP (eps u) 1 m (T • ‖d‖⁻¹ • d) := by
        intro i; rw [hTe, hmi]; exact h.rp _
      have hcy : CRP (eps u) 1 y (q + m) := fun i => by rw [hyi]; exact h.rp _
      rw [← hT]
      have hTn : ‖T • ‖d‖⁻¹ • d‖ = |T| := by rw [norm_smul, norm_unit hd, mul_one, Real.norm_eq_abs]
      have f1 : ‖m - T • ‖d‖⁻¹ • d‖ ≤ 2 * u * |T| := by
        refine (CRP.norm_sub_le hcm (by positivity)).trans ?_
        rw [hTn]; have := mul_le_mul_of_nonneg_right x1 (abs_nonneg T); linarith
      have f0 : ‖m‖ ≤ 101 / 100 * |T| := by
        have := norm_add_le (m - T • ‖d‖⁻¹ • d) (T • ‖d‖⁻¹ • d)
        rw [sub_add_cancel, hTn] at this
        have := mul_le_mul_of_nonneg_right hu1 (abs_nonneg T)
        linarith [abs_nonneg T]
      have f2 : ‖y - (q + m)‖ ≤ 2 * u * (‖q‖ + 101 / 100 * |T|) := by
        refine (CRP.norm_sub_le hcy (by positivity)).trans ?_
        have e1 := mul_le_mul_of_nonneg_right x1 (norm_nonneg (q + m))
        have e2 := mul_le_mul_of_nonneg_left ((norm_add_le q m).trans (add_le_add le_rfl f0)) (by positivity : 0 ≤ 2 * u)
        linarith
      rw [show y - (q + T • ‖d‖⁻¹ • d) = (y - (q + m)) + (m - T • ‖d‖⁻¹ • d) by module]
      refine (norm_add_le _ _).trans ?_
      linarith [mul_nonneg hu0 (abs_nonneg T)]
    · have := mul_le_mul_of_nonneg_right x4 (dist_nonneg (x := y) (y := c)); linarith
    · simp only [Cylinder.intersectCap, wrapped_rd, Plane.intersectLine, Vec.isPerpendicular, dot_rd, ok_bind, ← hD', isclose_zero_rd h (by linarith : u ≤ 1 / 2),
        hD0, decide_false, Bool.false_eq_true, if_false, hw, ← hN', neg_rd, div_rd, hm, hy, hg, pure_ok, le_rd, decide_eq_true_eq]

/-- A point of the line, seen from the center of a cap. -/
theorem cap_split {p a q e : E 3} (ha : a ≠ 0) (τ t : ℝ) :
    q + t • e - (p + τ • a) = (perpE (‖a‖⁻¹ • a) (q - p) + t • perpE (‖a‖⁻¹ • a) e) +
      ((inner ℝ (q - p) (‖a‖⁻¹ • a) - τ * ‖a‖) + inner ℝ e (‖a‖⁻¹ • a) * t) • (‖a‖⁻¹ • a) := by
  have hn : ‖a‖ ≠ 0 := norm_ne_zero_iff.mpr ha
  have e1 : τ • a = (τ * ‖a‖) • (‖a‖⁻¹ • a) := by rw [smul_smul, mul_assoc, mul_inv_cancel₀ hn, mul_one]
  rw [e1, perpE, perpE]
  module

/-- Whether a cap is hit is decided correctly, and the point is accurate, if the line is not near the rim. -/
theorem cap_rd (h : StdRounding u fl) (hu : u ≤ 1 / 10 ^ 5) {p c a q d : E 3} (ha : a ≠ 0) (hd : d ≠ 0) {r τ Λ : ℝ} (hr : 0 < r) (h0 : 0 ≤ τ)
    (h1 : τ ≤ 1) (hc : ‖c - (p + τ • a)‖ ≤ u * (‖p‖ + ‖a‖)) (hΛ : Λ = ‖p‖ + ‖q‖ + ‖a‖ + r)
    (hR : ∀ t : ℝ, ¬ (|(inner ℝ (q - p) (‖a‖⁻¹ • a) - τ * ‖a‖) + inner ℝ (‖d‖⁻¹ • d) (‖a‖⁻¹ • a) * t| ≤ 100 * u * Λ ∧
      |‖perpE (‖a‖⁻¹ • a) (q - p) + t • perpE (‖a‖⁻¹ • a) (‖d‖⁻¹ • d)‖ - r| ≤ 100 * u * Λ)) :
    ((∃ t : ℝ, (inner ℝ (q - p) (‖a‖⁻¹ • a) - τ * ‖a‖) + inner ℝ (‖d‖⁻¹ • d) (‖a‖⁻¹ • a) * t = 0 ∧
        ‖perpE (‖a‖⁻¹ • a) (q - p) + t • perpE (‖a‖⁻¹ • a) (‖d‖⁻¹ • d)‖ ≤ r) →
      (inner ℝ (‖d‖⁻¹ • d) (‖a‖⁻¹ • a) : ℝ) ≠ 0 ∧ ∃ y : E 3,
        @Cylinder.intersectCap ℝ (rounded fl) ⟨arr p, arr a, r⟩ ⟨arr q, arr d⟩ ⟨arr c, arr a⟩ = .ok (some (arr y)) ∧
        ∀ t : ℝ, (inner ℝ (q - p) (‖a‖⁻¹ • a) - τ * ‖a‖) + inner ℝ (‖d‖⁻¹ • d) (‖a‖⁻¹ • a) * t = 0 →
          ‖perpE (‖a‖⁻¹ • a) (q - p) + t • perpE (‖a‖⁻¹ • a) (‖d‖⁻¹ • d)‖ ≠ r ∧
          dist y (q + t • ‖d‖⁻¹ • d) ≤ 40 * u * Λ / |(inner ℝ (‖d‖⁻¹ • d) (‖a‖⁻¹ • a) : ℝ)|) ∧
    ((¬ ∃ t : ℝ, (inner ℝ (q - p) (‖a‖⁻¹ • a) - τ * ‖a‖) + inner ℝ (‖d‖⁻¹ • d) (‖a‖⁻¹ • a) * t = 0 ∧
        ‖perpE (‖a‖⁻¹ • a) (q - p) + t • perpE (‖a‖⁻¹ • a) (‖d‖⁻¹ • d)‖ ≤ r) →
      @Cylinder.intersectCap ℝ (rounded fl) ⟨arr p, arr a, r⟩ ⟨arr q, arr d⟩ ⟨arr c, arr a⟩ = .ok none) := by
  have hu0 := h.nonneg
  have hu1 : u ≤ 1 / 100000 := by norm_num at hu ⊢; exact hu
  obtain ⟨A, B, hA, hB, hnone, hsome⟩ := cap_calc (p := p) (c := c) (q := q) h hu ha hd r
  have hsp := fun t => cap_split (p := p) (q := q) (e := ‖d‖⁻¹ • d) ha τ t
  have hfn := norm_unit ha
  have hen := norm_unit hd
  have hvn := norm_perp_sq hfn (‖d‖⁻¹ • d)
  rw [hen, one_pow] at hvn
  have hcl : |(inner ℝ (‖d‖⁻¹ • d) (‖a‖⁻¹ • a) : ℝ)| ≤ 1 := by
    have := abs_real_inner_le_norm (‖d‖⁻¹ • d) (‖a‖⁻¹ • a); rwa [hfn, hen, mul_one] at this
  have hAq : |A - (inner ℝ (q - p) (‖a‖⁻¹ • a) - τ * ‖a‖)| ≤ 12 * u * ‖q - c‖ + u * (‖p‖ + ‖a‖) := by
    have e : (inner ℝ (q - c) (‖a‖⁻¹ • a) : ℝ) - (inner ℝ (q - p) (‖a‖⁻¹ • a) - τ * ‖a‖) = - inner ℝ (c - (p + τ • a)) (‖a‖⁻¹ • a) := by
      have hn : ‖a‖ ≠ 0 := norm_ne_zero_iff.mpr ha
      have e1 : (inner ℝ a (‖a‖⁻¹ • a) : ℝ) = ‖a‖ := by
        rw [real_inner_smul_right, real_inner_self_eq_norm_sq]; field_simp
      simp only [inner_sub_left, inner_add_left, real_inner_smul_left, e1]; ring
    have e2 := abs_real_inner_le_norm (c - (p + τ • a)) (‖a‖⁻¹ • a)
    rw [hfn, mul_one] at e2
    have e3 : A - (inner ℝ (q - p) (‖a‖⁻¹ • a) - τ * ‖a‖) = (A - inner ℝ (q - c) (‖a‖⁻¹ • a)) +
        ((inner ℝ (q - c) (‖a‖⁻¹ • a) : ℝ) - (inner ℝ (q - p) (‖a‖⁻¹ • a) - τ * ‖a‖)) := by ring
    rw [e3, e]
    refine (abs_add_le _ _).trans (add_le_add hA ?_)
    rw [abs_neg]; exact e2.trans hc
  obtain ⟨G, hG⟩ : ∃ G, G = ‖q - (p + τ • a)‖ := ⟨_, rfl⟩
  have hG1 : G + r ≤ Λ := by
    have e1 := norm_sub_le q (p + τ • a)
    have e2 := norm_add_le p (τ • a)
    rw [norm_smul, Real.norm_eq_abs, abs_of_nonneg h0] at e2
    have := mul_le_mul_of_nonneg_right h1 (norm_nonneg a)
    linarith
  have hG0 : 0 ≤ G := by rw [hG]; exact norm_nonneg _
  have hΛ0 : 0 ≤ Λ := by linarith
  have huΛ : 0 ≤ u * Λ := by positivity
  have huu : u * (u * Λ) ≤ 1 / 100000 * (u * Λ) := mul_le_mul_of_nonneg_right hu1 huΛ
  have huΛ1 : u * Λ ≤ 1 / 100000 * Λ := mul_le_mul_of_nonneg_right hu1 hΛ0
  have hpa : u * (‖p‖ + ‖a‖) ≤ u * Λ := mul_le_mul_of_nonneg_left (by linarith [norm_nonneg q]) hu0
  have hqu : u * ‖q‖ ≤ u * Λ := mul_le_mul_of_nonneg_left (by linarith [norm_nonneg p, norm_nonneg a]) hu0
  have hru : u * r ≤ u * Λ := mul_le_mul_of_nonneg_left (by linarith) hu0
  have hqc : ‖q - c‖ ≤ G + u * Λ := by
    have := norm_sub_le (q - (p + τ • a)) (c - (p + τ • a))
    rw [sub_sub_sub_cancel_right, ← hG] at this; linarith
  have hα : |A - (inner ℝ (q - p) (‖a‖⁻¹ • a) - τ * ‖a‖)| ≤ 14 * (u * Λ) := by
    refine hAq.trans ?_
    have := mul_le_mul_of_nonneg_left (hqc.trans (add_le_add (by linarith : G ≤ Λ) le_rfl)) hu0
    linarith
  have hxn : ∀ t : ℝ, ‖q + t • ‖d‖⁻¹ • d - (p + τ • a)‖ ≤ ‖perpE (‖a‖⁻¹ • a) (q - p) + t • perpE (‖a‖⁻¹ • a) (‖d‖⁻¹ • d)‖ +
      |(inner ℝ (q - p) (‖a‖⁻¹ • a) - τ * ‖a‖) + inner ℝ (‖d‖⁻¹ • d) (‖a‖⁻¹ • a) * t| := by
    intro t
    rw [hsp t]
    refine (norm_add_le _ _).trans (add_le_add le_rfl ?_)
    rw [norm_smul, hfn, mul_one, Real.norm_eq_abs]
  have htn : ∀ t : ℝ, |t| ≤ G + ‖q + t • ‖d‖⁻¹ • d - (p + τ • a)‖ := by
    intro t
    have := norm_sub_le (q + t • ‖d‖⁻¹ • d - (p + τ • a)) (q - (p + τ • a))
    rw [sub_sub_sub_cancel_right, add_sub_cancel_left, norm_smul, hen, mul_one, Real.norm_eq_abs, ← hG] at this
    linarith
  have hxp : ∀ t : ℝ, ‖perpE (‖a‖⁻¹ • a) (q - p) + t • perpE (‖a‖⁻¹ • a) (‖d‖⁻¹ • d)‖ ≤ ‖q + t • ‖d‖⁻¹ • d - (p + τ • a)‖ := by
    intro t
    have e1 : perpE (‖a‖⁻¹ • a) (q - p) + t • perpE (‖a‖⁻¹ • a) (‖d‖⁻¹ • d) = perpE (‖a‖⁻¹ • a) (q + t • ‖d‖⁻¹ • d - (p + τ • a)) := by
      have hn : ‖a‖ ≠ 0 := norm_ne_zero_iff.mpr ha
      have e2 : perpE (‖a‖⁻¹ • a) a = 0 := by
        rw [perpE, real_inner_smul_right, real_inner_self_eq_norm_sq, smul_smul]
        rw [show ‖a‖⁻¹ * ‖a‖ ^ 2 * ‖a‖⁻¹ = 1 by field_simp, one_smul, sub_self]
      rw [show q + t • ‖d‖⁻¹ • d - (p + τ • a) = (q - p + t • ‖d‖⁻¹ • d) + (-τ) • a by module, perp_lin, perp_lin, e2, smul_zero, add_zero]
    rw [e1]; exact norm_perp_le hfn _
  obtain ⟨P, hP⟩ : ∃ P, P = perpE (‖a‖⁻¹ • a) (q - p) := ⟨_, rfl⟩
  obtain ⟨v, hv⟩ : ∃ v, v = perpE (‖a‖⁻¹ • a) (‖d‖⁻¹ • d) := ⟨_, rfl⟩
  obtain ⟨h₀, hh⟩ : ∃ h₀ : ℝ, h₀ = inner ℝ (q - p) (‖a‖⁻¹ • a) - τ * ‖a‖ := ⟨_, rfl⟩
  obtain ⟨k, hk⟩ : ∃ k : ℝ, k = inner ℝ (‖d‖⁻¹ • d) (‖a‖⁻¹ • a) := ⟨_, rfl⟩
  obtain ⟨e, he⟩ : ∃ e, e = ‖d‖⁻¹ • d := ⟨_, rfl⟩
  rw [← hv, ← hk] at hvn
  rw [← hk] at hcl hB
  rw [← hh] at hα
  simp only [← hP, ← hv, ← hh, ← hk] at hR hxn hxp ⊢
  simp only [← he] at hsome hxn hxp htn ⊢
  have hGG : u * (G + r) ≤ u * Λ := mul_le_mul_of_nonneg_left hG1 hu0
  obtain ⟨c1, c2, c3⟩ := cap_decide (P := P) (v := v) (G := G) hr hvn hα hB (by linarith) (fun t => by linarith [htn t, hxn t]) hG0
    (show 3 * (14 * (u * Λ) + 10 * u * (G + r)) ≤ 100 * u * Λ by linarith) hR
  have hT0 : ∀ T, A + B * T = 0 → |h₀ + k * T| ≤ 14 * (u * Λ) + 10 * u * |T| := by
    intro T hT
    have e1 : h₀ + k * T = -((A - h₀) + (B - k) * T) := by linear_combination hT
    rw [e1, abs_neg]
    refine (abs_add_le _ _).trans (add_le_add hα ?_)
    rw [abs_mul]; exact mul_le_mul_of_nonneg_right hB (abs_nonneg T)
  constructor
  · intro hex
    have hB0 : B ≠ 0 := fun hB0 => c1 hB0 hex
    obtain ⟨T, g, y, hT, hy, hg, hcap⟩ := hsome hB0
    obtain ⟨d1, d2⟩ := c3 T hT hex
    have d1' : |h₀ + k * T| ≤ 25 * (u * Λ) := d1.trans (by linarith)
    have hTb : |T| ≤ 101 / 100 * Λ := by
      have := htn T; have := hxn T; linarith
    have huT := mul_le_mul_of_nonneg_left hTb hu0
    have hy' : ‖y - (q + T • e)‖ ≤ 8 * (u * Λ) := by linarith
    have hDc : dist y c ≤ r - 66 * (u * Λ) := by
      have e1 : y - c = (y - (q + T • e)) + (q + T • e - (p + τ • a)) - (c - (p + τ • a)) := by abel
      rw [dist_eq_norm, e1]
      have := norm_sub_le ((y - (q + T • e)) + (q + T • e - (p + τ • a))) (c - (p + τ • a))
      have := norm_add_le (y - (q + T • e)) (q + T • e - (p + τ • a))
      have := hxn T
      linarith
    have hgr : g ≤ r := by
      have := (abs_le.mp hg).2
      have := mul_le_mul_of_nonneg_left (hDc.trans (by linarith : r - 66 * (u * Λ) ≤ r)) hu0
      linarith
    rw [if_pos hgr] at hcap
    have hk0 := (c2 T hT (by linarith) (by linarith)).1
    refine ⟨hk0, y, hcap, fun t ht => ⟨fun hcon => ?_, ?_⟩⟩
    · exact hR t ⟨by rw [ht, abs_zero]; linarith, by rw [hcon, sub_self, abs_zero]; linarith⟩
    · have hkp : 0 < |k| := abs_pos.mpr hk0
      have e1 : |T - t| * |k| ≤ 25 * (u * Λ) := by
        rw [← abs_mul, show (T - t) * k = h₀ + k * T by linear_combination -ht]; exact d1'
      have e2 : dist y (q + t • e) ≤ 8 * (u * Λ) + |T - t| := by
        rw [dist_eq_norm, show y - (q + t • e) = (y - (q + T • e)) + (T - t) • e by module]
        refine (norm_add_le _ _).trans (add_le_add hy' ?_)
        rw [norm_smul, Real.norm_eq_abs, he, hen, mul_one]
      rw [le_div_iff₀ hkp]
      have := mul_le_mul_of_nonneg_right e2 hkp.le
      have : 8 * (u * Λ) * |k| ≤ 8 * (u * Λ) * 1 := mul_le_mul_of_nonneg_left hcl (by linarith)
      linarith
  · intro hex
    by_cases hB0 : B = 0
    · exact hnone hB0
    · obtain ⟨T, g, y, hT, hy, hg, hcap⟩ := hsome hB0
      rw [hcap, if_neg]
      intro hgr
      apply hex
      have hD0 : 0 ≤ dist y c := dist_nonneg
      have hDc : dist y c ≤ r + 9 * (u * Λ) := by
        have := (abs_le.mp hg).1
        have e1 : u * dist y c ≤ 1 / 100000 * dist y c := mul_le_mul_of_nonneg_right hu1 hD0
        have e2 : dist y c ≤ 101 / 100 * r := by linarith
        have e3 := mul_le_mul_of_nonneg_left e2 hu0
        linarith
      have hxc : ‖q + T • e - (p + τ • a)‖ ≤ r + 10 * (u * Λ) + u * (2 * ‖q‖ + 5 * |T|) := by
        have e1 : q + T • e - (p + τ • a) = (y - c) - (y - (q + T • e)) + (c - (p + τ • a)) := by abel
        rw [e1]
        have := norm_add_le ((y - c) - (y - (q + T • e))) (c - (p + τ • a))
        have := norm_sub_le (y - c) (y - (q + T • e))
        rw [← dist_eq_norm y c] at this
        linarith
      have hTb : |T| ≤ 101 / 100 * Λ := by
        have := htn T
        have := mul_le_mul_of_nonneg_right hu1 (abs_nonneg T)
        linarith
      have huT := mul_le_mul_of_nonneg_left hTb hu0
      have := hT0 T hT
      have := hxp T
      exact (c2 T hT (by linarith) (by linarith)).2

/-! ## Rims -/

/-- A point with height near that of a cap and distance from the axis near `r` is near the rim. -/
theorem rim_near {p a : E 3} (ha : a ≠ 0) {r τ : ℝ} (hr : 0 < r) (hτ : τ = 0 ∨ τ = 1) (x : E 3) :
    ∃ z ∈ rims p a r, dist x z ≤ |psignedE p a x - τ * ‖a‖| + |‖perpE (‖a‖⁻¹ • a) (x - p)‖ - r| := by
  have hf := norm_unit ha
  have hn : ‖a‖ ≠ 0 := norm_ne_zero_iff.mpr ha
  have hfa : a = ‖a‖ • (‖a‖⁻¹ • a) := by rw [smul_smul, mul_inv_cancel₀ hn, one_smul]
  obtain ⟨w, hw, hwa, hx⟩ : ∃ w : E 3, ‖w‖ = 1 ∧ inner ℝ w a = (0 : ℝ) ∧
      perpE (‖a‖⁻¹ • a) (x - p) = ‖perpE (‖a‖⁻¹ • a) (x - p)‖ • w := by
    by_cases h0 : perpE (‖a‖⁻¹ • a) (x - p) = 0
    · obtain ⟨w, h1, h2⟩ := exists_unit_perp a
      exact ⟨w, h1, h2, by rw [h0]; simp⟩
    · refine ⟨‖perpE (‖a‖⁻¹ • a) (x - p)‖⁻¹ • perpE (‖a‖⁻¹ • a) (x - p), norm_unit h0, ?_, ?_⟩
      · rw [hfa, real_inner_smul_left, real_inner_smul_right, ← hfa, perpE_inner hf, mul_zero, mul_zero]
      · rw [smul_inv_smul₀ (norm_ne_zero_iff.mpr h0)]
  refine ⟨p + τ • a + r • w, ⟨τ, r • w, hτ, by rw [real_inner_smul_left, hwa, mul_zero], by
    rw [norm_smul, hw, mul_one, Real.norm_eq_abs, abs_of_pos hr], rfl⟩, ?_⟩
  have h1 := cap_split (p := p) (q := x) (e := 0) ha τ 0
  rw [zero_smul, zero_smul, add_zero, add_zero, mul_zero, add_zero] at h1
  have h2 : x - (p + τ • a + r • w) = (‖perpE (‖a‖⁻¹ • a) (x - p)‖ - r) • w + (psignedE p a x - τ * ‖a‖) • (‖a‖⁻¹ • a) := by
    rw [sub_smul, ← hx, psignedE, ← sub_sub, h1]; abel
  rw [dist_eq_norm, h2, add_comm |psignedE p a x - τ * ‖a‖|]
  refine (norm_add_le _ _).trans (le_of_eq ?_)
  rw [norm_smul, norm_smul, hw, hf, mul_one, mul_one, Real.norm_eq_abs, Real.norm_eq_abs]

theorem rad2_perp {p a : E 3} (ha : a ≠ 0) (x : E 3) : rad2 p a x = ‖perpE (‖a‖⁻¹ • a) (x - p)‖ ^ 2 := by
  rw [rad2, norm_perp_sq (norm_unit ha), psignedE]

/-- Height and distance from the axis along a line. -/
theorem line_coords {p a q e : E 3} (t : ℝ) :
    psignedE p a (q + t • e) = inner ℝ (q - p) (‖a‖⁻¹ • a) + inner ℝ e (‖a‖⁻¹ • a) * t ∧
    perpE (‖a‖⁻¹ • a) (q + t • e - p) = perpE (‖a‖⁻¹ • a) (q - p) + t • perpE (‖a‖⁻¹ • a) e := by
  constructor
  · rw [psignedE, add_sub_right_comm, inner_add_left, real_inner_smul_left]; ring
  · rw [add_sub_right_comm, perp_lin]

/-- One cap: the exact and the rounded computation. -/
theorem cap_pair (h : StdRounding u fl) (hu : u ≤ 1 / 10 ^ 5) {p c a q d : E 3} (ha : a ≠ 0) (hd : d ≠ 0) {r τ Λ : ℝ} (hr : 0 < r)
    (hτ : τ = 0 ∨ τ = 1) (hc : ‖c - (p + τ • a)‖ ≤ u * (‖p‖ + ‖a‖)) (hΛ : Λ = ‖p‖ + ‖q‖ + ‖a‖ + r)
    (hrim : ∀ x ∈ lineSet q d, ∀ z ∈ rims p a r, 200 * u * Λ < dist x z) :
    ∃ X Y : Option (E 3), Cylinder.intersectCap ⟨arr p, arr a, r⟩ ⟨arr q, arr d⟩ ⟨arr (p + τ • a), arr a⟩ = .ok (X.map arr) ∧
      @Cylinder.intersectCap ℝ (rounded fl) ⟨arr p, arr a, r⟩ ⟨arr q, arr d⟩ ⟨arr c, arr a⟩ = .ok (Y.map arr) ∧
      Option.Rel (fun x y => x ∈ lineSet q d ∧ x ∈ capDisc p a r τ ∧ x ∉ infCyl p a r ∧ dist y x ≤ 40 * u * Λ / |cosE a d|) X Y ∧
      ((lineSet q d ∩ capDisc p a r τ).Nonempty → ∃ x, X = some x) := by
  have hna : ‖a‖ ≠ 0 := norm_ne_zero_iff.mpr ha
  have hnd : ‖d‖ ≠ 0 := norm_ne_zero_iff.mpr hd
  have hR : ∀ t : ℝ, ¬ (|(inner ℝ (q - p) (‖a‖⁻¹ • a) - τ * ‖a‖) + inner ℝ (‖d‖⁻¹ • d) (‖a‖⁻¹ • a) * t| ≤ 100 * u * Λ ∧
      |‖perpE (‖a‖⁻¹ • a) (q - p) + t • perpE (‖a‖⁻¹ • a) (‖d‖⁻¹ • d)‖ - r| ≤ 100 * u * Λ) := by
    rintro t ⟨h1, h2⟩
    obtain ⟨z, hz, hdz⟩ := rim_near (p := p) ha hr hτ (q + t • ‖d‖⁻¹ • d)
    obtain ⟨e1, e2⟩ := line_coords (p := p) (a := a) (q := q) (e := ‖d‖⁻¹ • d) t
    rw [e1, e2] at hdz
    have := hrim (q + t • ‖d‖⁻¹ • d) (by rw [← lineSet_unit' q hd]; exact ⟨t, rfl⟩) z hz
    rw [add_sub_right_comm] at hdz
    linarith
  have hcos : |(inner ℝ (‖d‖⁻¹ • d) (‖a‖⁻¹ • a) : ℝ)| = |cosE a d| := by
    rw [cosE, real_inner_smul_left, real_inner_smul_right, real_inner_comm]
    congr 1; field_simp
  have h01 : 0 ≤ τ ∧ τ ≤ 1 := by rcases hτ with rfl | rfl <;> norm_num
  obtain ⟨r1, r2⟩ := cap_rd h hu ha hd hr h01.1 h01.2 hc hΛ hR
  obtain ⟨e1, e2⟩ := Cylinder.intersectCap_arr p ha hr q hd τ
  have hcap : ∀ t : ℝ, q + t • ‖d‖⁻¹ • d ∈ capDisc p a r τ ↔
      (inner ℝ (q - p) (‖a‖⁻¹ • a) - τ * ‖a‖) + inner ℝ (‖d‖⁻¹ • d) (‖a‖⁻¹ • a) * t = 0 ∧
        ‖perpE (‖a‖⁻¹ • a) (q - p) + t • perpE (‖a‖⁻¹ • a) (‖d‖⁻¹ • d)‖ ≤ r := by
    intro t
    obtain ⟨l1, l2⟩ := line_coords (p := p) (a := a) (q := q) (e := ‖d‖⁻¹ • d) t
    constructor
    · rintro ⟨w, hw, hwr, hx⟩
      obtain ⟨c1, c2⟩ := cyl_coords p ha hw τ
      rw [← hx] at c1 c2
      rw [rad2_perp ha, l2, sq_eq_sq₀ (norm_nonneg _) (norm_nonneg _)] at c2
      rw [l1] at c1
      exact ⟨by linarith, c2 ▸ hwr⟩
    · rintro ⟨c1, c2⟩
      have := cap_split (p := p) (q := q) (e := ‖d‖⁻¹ • d) ha τ t
      rw [c1, zero_smul, add_zero] at this
      refine ⟨_, ?_, c2, by rw [← this]; abel⟩
      rw [← l2]
      have hfa : a = ‖a‖ • (‖a‖⁻¹ • a) := by rw [smul_smul, mul_inv_cancel₀ hna, one_smul]
      conv_lhs => rw [hfa, real_inner_smul_right, ← hfa]
      rw [perpE_inner (norm_unit ha), mul_zero]
  by_cases hex : ∃ t : ℝ, (inner ℝ (q - p) (‖a‖⁻¹ • a) - τ * ‖a‖) + inner ℝ (‖d‖⁻¹ • d) (‖a‖⁻¹ • a) * t = 0 ∧
        ‖perpE (‖a‖⁻¹ • a) (q - p) + t • perpE (‖a‖⁻¹ • a) (‖d‖⁻¹ • d)‖ ≤ r
  · obtain ⟨hk, y, hy, hdist⟩ := r1 hex
    obtain ⟨s, hs, hcs⟩ := e2 hk
    obtain ⟨l1, l2⟩ := line_coords (p := p) (a := a) (q := q) (e := ‖d‖⁻¹ • d) s
    obtain ⟨t, ht, htr⟩ := hex
    rw [l1] at hs
    have hst : s = t := by
      have : inner ℝ (‖d‖⁻¹ • d) (‖a‖⁻¹ • a) * (s - t) = (0 : ℝ) := by linear_combination hs - ht
      rcases mul_eq_zero.mp this with h0 | h0
      · exact absurd h0 hk
      · linarith
    subst hst
    have hle : rad2 p a (q + s • ‖d‖⁻¹ • d) ≤ r ^ 2 := by
      rw [rad2_perp ha, l2]; exact pow_le_pow_left₀ (norm_nonneg _) htr 2
    obtain ⟨d1, d2⟩ := hdist s ht
    rw [if_pos hle] at hcs
    refine ⟨some (q + s • ‖d‖⁻¹ • d), some y, hcs, hy, Option.Rel.some ⟨?_, (hcap s).mpr ⟨ht, htr⟩, ?_, ?_⟩, fun _ => ⟨_, rfl⟩⟩
    · rw [← lineSet_unit' q hd]; exact ⟨s, rfl⟩
    · rw [mem_infCyl ha hr, rad2_perp ha, l2, sq_eq_sq₀ (norm_nonneg _) hr.le]; exact d1
    · rw [← hcos]; exact d2
  · refine ⟨none, none, ?_, r2 hex, Option.Rel.none, ?_⟩
    · by_cases hk : (inner ℝ (‖d‖⁻¹ • d) (‖a‖⁻¹ • a) : ℝ) = 0
      · exact e1 hk
      · obtain ⟨s, hs, hcs⟩ := e2 hk
        obtain ⟨l1, l2⟩ := line_coords (p := p) (a := a) (q := q) (e := ‖d‖⁻¹ • d) s
        rw [hcs, if_neg]
        · rfl
        · rw [rad2_perp ha, l2, pow_le_pow_iff_left₀ (norm_nonneg _) hr.le two_ne_zero]
          intro hle
          rw [l1] at hs
          exact hex ⟨s, by linarith, hle⟩
    · rintro ⟨x, hx, hxc⟩
      rw [← lineSet_unit' q hd] at hx
      obtain ⟨t, rfl⟩ := hx
      exact absurd ⟨t, (hcap t).mp hxc⟩ hex

/-- The decision whether a point of the lateral surface is between the planes of the caps. -/
theorem between_rd (h : StdRounding u fl) (hu : u ≤ 1 / 10 ^ 5) {p a x y : E 3} (ha : a ≠ 0) {r ε ζ : ℝ} (hr : 0 < r)
    (hx : ‖perpE (‖a‖⁻¹ • a) (x - p)‖ = r) (hxy : dist y x ≤ ε) (hζ : 2 * ε + 100 * u * (‖a‖ + r) ≤ ζ)
    (h0 : ζ < |psignedE p a x|) (h1 : ζ < |psignedE p a x - ‖a‖|) :
    @Cylinder.betweenCapPlanes ℝ (rounded fl) ⟨arr p, arr a, r⟩ (arr y) = .ok (decide (0 ≤ psignedE p a x ∧ psignedE p a x ≤ ‖a‖)) := by
  classical
  have hu0 := h.nonneg
  have hu1 : u ≤ 1 / 100000 := by norm_num at hu ⊢; exact hu
  obtain ⟨s, hs, hse⟩ := planeSigned_rd h p a y ha
  have hl := (h.normv_rp le_rfl (CRP.refl (eps u) a)).abs_sub_le
  rw [show (0 + ((3 : ℕ) + 3) / 2 : ℝ) = 3 by norm_num, abs_of_nonneg (norm_nonneg _)] at hl
  obtain ⟨ℓ, hℓ⟩ : ∃ ℓ, ℓ = @normv ℝ (rounded fl) (arr a) := ⟨_, rfl⟩
  rw [← hℓ] at hl
  have hz := C73_is_zero h (by linarith) a
  have hb : @Cylinder.betweenCapPlanes ℝ (rounded fl) ⟨arr p, arr a, r⟩ (arr y) = .ok (decide (0 ≤ s) && decide (s ≤ ℓ)) := by
    simp [Cylinder.betweenCapPlanes, Plane.new, newLinePlane, new1D_rd, hz, ha, hs, le_rd, zero_rd, Cylinder.length, Vec.norm, hℓ]
  have x9 : Real.exp (9 * eps u) - 1 ≤ 2 * 9 * u := exp_eps_le2 h (by norm_num) (by linarith)
  have x3 : Real.exp (3 * eps u) - 1 ≤ 2 * 3 * u := exp_eps_le2 h (by norm_num) (by linarith)
  rw [signedDist_eq, show ((3 * (3 : ℕ) + 9) / 2 : ℝ) = 9 by norm_num] at hse
  have hps : psignedE p a x = signedDist p a x := by rw [← signedDist_eq, psignedE, real_inner_comm]
  have hε0 : 0 ≤ ε := dist_nonneg.trans hxy
  have hlip := signedDist_lip p a y x
  rw [← hps] at hlip
  have hxp : dist x p ≤ r + |psignedE p a x| := by
    have := cap_split (p := p) (q := x) (e := 0) ha 0 0
    rw [zero_smul, zero_smul, zero_smul, add_zero, add_zero, mul_zero, zero_mul, add_zero, sub_zero, add_zero] at this
    rw [dist_eq_norm, this]
    refine (norm_add_le _ _).trans (le_of_eq ?_)
    rw [hx, norm_smul, norm_unit ha, mul_one, Real.norm_eq_abs, psignedE]
  have hyp : dist y p ≤ ε + r + |psignedE p a x| := by linarith [dist_triangle y x p]
  obtain ⟨k, hk⟩ : ∃ k, k = psignedE p a x := ⟨_, rfl⟩
  rw [← hk] at h0 h1 hlip hyp ⊢
  have e1 : |s - k| ≤ ε + 18 * u * (ε + r + |k|) := by
    have m1 : |s - signedDist p a y| ≤ 18 * u * (ε + r + |k|) := by
      refine hse.trans ?_
      refine (mul_le_mul_of_nonneg_right x9 dist_nonneg).trans ?_
      have := mul_le_mul_of_nonneg_left hyp hu0
      linarith
    have m2 := abs_add_le (s - signedDist p a y) (signedDist p a y - k)
    rw [sub_add_sub_cancel] at m2
    linarith [hlip.trans hxy]
  have e2 : |ℓ - ‖a‖| ≤ 6 * u * ‖a‖ := hl.trans (by linarith [mul_le_mul_of_nonneg_right x3 (norm_nonneg a)])
  rw [hb]
  have m1 := abs_le.mp e1
  have m2 := abs_le.mp e2
  have uε : u * ε ≤ 1 / 100000 * ε := mul_le_mul_of_nonneg_right hu1 hε0
  have ua : 0 ≤ u * ‖a‖ := by positivity
  have ur : 0 ≤ u * r := by positivity
  have hζ0 : 0 ≤ ζ := le_trans (by positivity) hζ
  congr 1
  rw [Bool.eq_iff_iff]
  simp only [Bool.and_eq_true, decide_eq_true_eq]
  have uk : u * |k| ≤ 1 / 100000 * |k| := mul_le_mul_of_nonneg_right hu1 (abs_nonneg k)
  constructor
  · rintro ⟨t1, t2⟩
    have k0 : 0 ≤ k := by
      by_contra hc
      rw [abs_of_neg (not_le.mp hc)] at *
      linarith
    refine ⟨k0, ?_⟩
    by_contra hc
    rw [abs_of_nonneg k0] at *
    rw [abs_of_pos (by linarith)] at h1
    have : u * k = u * (k - ‖a‖) + u * ‖a‖ := by ring
    have : u * (k - ‖a‖) ≤ 1 / 100000 * (k - ‖a‖) := mul_le_mul_of_nonneg_right hu1 (by linarith)
    linarith
  · rintro ⟨k0, k1⟩
    rw [abs_of_nonneg k0] at *
    rw [abs_of_nonpos (by linarith)] at h1
    have : u * k ≤ u * ‖a‖ := mul_le_mul_of_nonneg_left k1 hu0
    constructor <;> linarith

end SkSpatial
