import Verif.Props.Rounding29
import Verif.Props.Rounding30
import Verif.Props.Rounding6
import Verif.Props.Rounding24
import Verif.Props.BestFitRounded2
/-! # C121: `intersect_line_segment` and `is_close` under rounding -/

namespace SkSpatial
open StdRounding

variable {u η : ℝ} {fl : Arith} {n : ℕ}

/-- A quarter turn. -/
theorem quarter (d : E 2) : ∃ A : E 2, ‖A‖ = ‖d‖ ∧ inner ℝ d A = (0 : ℝ) ∧ A 0 = -(d 1) ∧ A 1 = d 0 := by
  refine ⟨vec2 (-(d 1)) (d 0), ?_, ?_, rfl, rfl⟩
  · rw [← Real.sqrt_sq (norm_nonneg d), ← Real.sqrt_sq (norm_nonneg (vec2 _ _)), norm_sq2, norm_sq2]
    congr 1; simp [vec2]; ring
  · rw [inner2]; simp [vec2]; ring

set_option maxHeartbeats 1000000 in
/-- The computed intersection of two lines of the plane with perturbed directions `w`, `v`, compared with the intersection `x` of the
unperturbed lines. -/
theorem meet_perturbed (h : StdRounding u fl) (hu : u ≤ 1 / 10 ^ 11) [ext : NumpyExt ℝ] [hS : StableNumpy η] {a c d e w v x : E 2} {s δ : ℝ}
    (hd : d ≠ 0) (he : e ≠ 0) (hs : s * (‖d‖ * ‖e‖) ≤ |det2E d e|) (hs0 : 12 / 10 ^ 5 ≤ s) (hs1 : s ≤ 1) (hδ0 : 0 ≤ δ) (hδ : 8 * δ ≤ s)
    (hw : ‖w - d‖ ≤ δ * ‖d‖) (hv : ‖v - e‖ ≤ δ * ‖e‖) (hxa : x ∈ lineSet a d) (hxc : x ∈ lineSet c e) (check : Bool) :
    ∃ y, @Line.intersectLine ℝ (rounded fl) ext ⟨arr a, arr w⟩ ⟨arr c, arr v⟩ check (@Tol.default ℝ (rounded fl)) = .ok (arr y) ∧
      dist y x ≤ u * (2 * ‖a‖ + 520 * dist a c / s ^ 2) + 4 * δ / s * (dist x a + dist x c) := by
  have hu0 := h.nonneg
  have hsp : 0 < s := lt_of_lt_of_le (by norm_num) hs0
  have hu2 : u ≤ 1 / 2 := by norm_num at hu; linarith
  have hδ1 : δ ≤ 1 / 8 := by linarith
  have hd0 : 0 < ‖d‖ := norm_pos_iff.mpr hd
  have he0 : 0 < ‖e‖ := norm_pos_iff.mpr he
  have hsw := sine_perturb hd he hs hδ0 hδ hs1 hw hv
  have ne0 : ∀ {z y : E 2}, y ≠ 0 → ‖z - y‖ ≤ δ * ‖y‖ → z ≠ 0 := by
    intro z y hy hz h0
    rw [h0, zero_sub, norm_neg] at hz
    have := norm_pos_iff.mpr hy
    nlinarith
  have hw0 := ne0 hd hw
  have hv0 := ne0 he hv
  have hw0' : 0 < ‖w‖ := norm_pos_iff.mpr hw0
  have hv0' : 0 < ‖v‖ := norm_pos_iff.mpr hv0
  obtain ⟨σ, hσ⟩ : ∃ σ, σ = √(1 - cosE w v ^ 2) := ⟨_, rfl⟩
  have hσs : s / 2 ≤ σ := by
    rw [det2E_sine hw0 hv0, ← hσ, mul_comm] at hsw
    exact le_of_mul_le_mul_left hsw (by positivity)
  have hσ0 : 0 < σ := by linarith
  have hcos : |cosE w v| < 1 - 15 / 10 ^ 10 := by
    have h1 : σ ^ 2 = 1 - |cosE w v| ^ 2 := by
      rw [hσ, sq_abs]
      refine Real.sq_sqrt ?_
      have := pow_le_one₀ (n := 2) (abs_nonneg _) (abs_cosE_le_one w v)
      rw [sq_abs] at this; linarith
    have h2 : (6 / 10 ^ 5) ^ 2 ≤ σ ^ 2 := pow_le_pow_left₀ (by norm_num) (by norm_num at hs0 ⊢; linarith) 2
    have h3 := abs_nonneg (cosE w v)
    norm_num at h2 ⊢
    nlinarith
  have LA := ((C73_constructors h hu2 a w).1 hw0).1
  have LB := ((C73_constructors h hu2 c v).1 hv0).1
  obtain ⟨y, hy, z, ⟨hz1, hz2⟩, hyz⟩ := ((C109_plane (η := η) le_rfl h hu LA LB).2 hcos).2 check
  refine ⟨y, hy, ?_⟩
  rw [← hσ] at hyz
  have hκ : σ⁻¹ ^ 2 ≤ 4 / s ^ 2 := by
    rw [inv_pow, inv_le_comm₀ (by positivity) (by positivity)]
    rw [inv_div, div_le_iff₀ (by norm_num)]
    nlinarith
  have h1 : dist y z ≤ u * (2 * ‖a‖ + 520 * dist a c / s ^ 2) := by
    refine hyz.trans (mul_le_mul_of_nonneg_left ?_ hu0)
    have e1 : 130 * σ⁻¹ ^ 2 * dist a c ≤ 130 * (4 / s ^ 2) * dist a c :=
      mul_le_mul_of_nonneg_right (mul_le_mul_of_nonneg_left hκ (by norm_num)) dist_nonneg
    have e2 : 130 * (4 / s ^ 2) * dist a c = 520 * dist a c / s ^ 2 := by ring
    linarith
  -- the exact intersection of the perturbed lines
  obtain ⟨A, nA, pA, A0, A1⟩ := quarter d
  obtain ⟨B, nB, pB, B0, B1⟩ := quarter e
  have hAB : det2E A B = det2E d e := by rw [det2E, det2E, A0, A1, B0, B1]; ring
  have on : ∀ {p q f F : E 2}, q ∈ lineSet p f → inner ℝ f F = (0 : ℝ) → inner ℝ (q - p) F = (0 : ℝ) := by
    rintro p q f F ⟨t, rfl⟩ hF
    rw [add_sub_cancel_left, real_inner_smul_left, hF, mul_zero]
  have s1 := ortho_side hδ0 hδ1 (on hxa pA) pA hd0 hw hz1
  have s2 := ortho_side hδ0 hδ1 (on hxc pB) pB he0 hv hz2
  have hz := cramer_le (z - x) A B
  rw [hAB, nA, nB] at hz
  rw [nA] at s1
  rw [nB] at s2
  have hde : 0 < ‖d‖ * ‖e‖ := by positivity
  have h2 : ‖z - x‖ * s ≤ 2 * δ * (dist z a + dist z c) := by
    refine le_of_mul_le_mul_right ?_ hde
    calc ‖z - x‖ * s * (‖d‖ * ‖e‖) = ‖z - x‖ * (s * (‖d‖ * ‖e‖)) := by ring
      _ ≤ ‖z - x‖ * |det2E d e| := mul_le_mul_of_nonneg_left hs (norm_nonneg _)
      _ ≤ _ := hz
      _ ≤ 2 * δ * dist z a * ‖d‖ * ‖e‖ + 2 * δ * dist z c * ‖e‖ * ‖d‖ :=
          add_le_add (mul_le_mul_of_nonneg_right s1 (norm_nonneg _)) (mul_le_mul_of_nonneg_right s2 (norm_nonneg _))
      _ = _ := by ring
  have h3 : dist z x ≤ 4 * δ / s * (dist x a + dist x c) := by
    have t1 := dist_triangle z x a
    have t2 := dist_triangle z x c
    rw [← dist_eq_norm] at h2
    rw [div_mul_eq_mul_div, le_div_iff₀ hsp]
    have t3 : 2 * δ * (dist z a + dist z c) ≤ 2 * δ * (2 * dist z x + (dist x a + dist x c)) :=
      mul_le_mul_of_nonneg_left (by linarith) (by positivity)
    have t4 : 8 * δ * dist z x ≤ s * dist z x := mul_le_mul_of_nonneg_right hδ dist_nonneg
    linarith
  exact (dist_triangle y z x).trans (add_le_add h1 h3)

/-- A point near an inner point of a segment sees the end points in nearly opposite directions. -/
theorem cos_near_inner {a b x y : E n} (hx : x ∈ segment ℝ a b) (ha : x ≠ a) (hb : x ≠ b) {ε : ℝ} (hε : ε < 1)
    (h1 : dist y x ≤ ε * dist x a) (h2 : dist y x ≤ ε * dist x b) : cosE (a - y) (b - y) ≤ -1 + 8 * ε ^ 2 := by
  obtain ⟨p, hp⟩ : ∃ p, p = a - x := ⟨_, rfl⟩
  obtain ⟨q, hq⟩ : ∃ q, q = b - x := ⟨_, rfl⟩
  have hp0 : 0 < ‖p‖ := norm_pos_iff.mpr (by rw [hp]; exact sub_ne_zero.mpr ha.symm)
  have hq0 : 0 < ‖q‖ := norm_pos_iff.mpr (by rw [hq]; exact sub_ne_zero.mpr hb.symm)
  have hε0 : 0 ≤ ε := by
    by_contra hc
    have : 0 < dist x a := dist_pos.mpr ha
    nlinarith [@dist_nonneg _ _ y x]
  -- opposite unit vectors
  have hopp : ‖p‖⁻¹ • p = -(‖q‖⁻¹ • q) := by
    have hc : cosE p q = -1 := by
      rcases mem_segment_iff_cos.mp hx with e | e | e
      · exact absurd e ha
      · exact absurd e hb
      · rw [hp, hq]; exact e
    have h3 : ‖‖p‖⁻¹ • p + ‖q‖⁻¹ • q‖ ^ 2 = 0 := by
      rw [norm_add_sq_real, norm_unit (norm_pos_iff.mp hp0), norm_unit (norm_pos_iff.mp hq0), real_inner_smul_left, real_inner_smul_right]
      have : ‖p‖⁻¹ * (‖q‖⁻¹ * (inner ℝ p q : ℝ)) = cosE p q := by rw [cosE]; field_simp
      rw [this, hc]; ring
    exact eq_neg_of_add_eq_zero_left (norm_eq_zero.mp (pow_eq_zero_iff (two_ne_zero) |>.mp h3))
  -- one end point
  have one : ∀ {c : E n}, c - x ≠ 0 → dist y x ≤ ε * dist x c → c - y ≠ 0 ∧
      ‖‖c - y‖⁻¹ • (c - y) - ‖c - x‖⁻¹ • (c - x)‖ ≤ 2 * ε := by
    intro c hc hd
    have hc0 : 0 < ‖c - x‖ := norm_pos_iff.mpr hc
    have e1 : ‖(c - y) - (c - x)‖ ≤ ε * ‖c - x‖ := by
      rw [sub_sub_sub_cancel_left, ← dist_eq_norm, dist_comm, ← dist_eq_norm, dist_comm c x]; exact hd
    have e2 : c - y ≠ 0 := by
      intro h0
      rw [h0, zero_sub, norm_neg] at e1
      nlinarith
    refine ⟨e2, ?_⟩
    have hk : ‖c - x‖⁻¹ • (c - y) ≠ 0 := smul_ne_zero (inv_ne_zero hc0.ne') e2
    have e3 : ‖‖c - x‖⁻¹ • (c - y) - ‖c - x‖⁻¹ • (c - x)‖ ≤ ε := by
      rw [← smul_sub, norm_smul, norm_inv, norm_norm, inv_mul_le_iff₀ hc0, mul_comm]; exact e1
    have e4 := unit_near (norm_unit hc) hk e3
    rwa [norm_smul, norm_inv, norm_norm, smul_smul, mul_inv, inv_inv, mul_assoc, mul_comm (‖c - y‖⁻¹), ← mul_assoc,
      mul_inv_cancel₀ hc0.ne', one_mul] at e4
  obtain ⟨na, ea⟩ := one (c := a) (by rw [← hp]; exact norm_pos_iff.mp hp0) h1
  obtain ⟨nb, eb⟩ := one (c := b) (by rw [← hq]; exact norm_pos_iff.mp hq0) h2
  rw [← hp] at ea
  rw [← hq] at eb
  have h5 : ‖‖a - y‖⁻¹ • (a - y) + ‖b - y‖⁻¹ • (b - y)‖ ≤ 4 * ε := by
    have : ‖a - y‖⁻¹ • (a - y) + ‖b - y‖⁻¹ • (b - y) = (‖a - y‖⁻¹ • (a - y) - ‖p‖⁻¹ • p) + (‖b - y‖⁻¹ • (b - y) - ‖q‖⁻¹ • q) := by
      rw [hopp]; abel
    rw [this]
    exact (norm_add_le _ _).trans (by linarith)
  have h6 := pow_le_pow_left₀ (norm_nonneg _) h5 2
  rw [norm_add_sq_real, norm_unit na, norm_unit nb, real_inner_smul_left, real_inner_smul_right] at h6
  have h7 : ‖a - y‖⁻¹ * (‖b - y‖⁻¹ * (inner ℝ (a - y) (b - y) : ℝ)) = cosE (a - y) (b - y) := by
    have := norm_pos_iff.mpr na
    have := norm_pos_iff.mpr nb
    rw [cosE]; field_simp
  rw [h7] at h6
  linarith

/-- C121: `segment.intersect_line_segment(other)` in the plane, under rounding.  Let `x` be the common point of the lines through the end
points `a`, `b` and `c`, `d`, `s` the sine of their angle, `s ≥ 1.2e-4`, and `e = u (2 ‖a‖ + 524 (|xa| + |xc|) / s²)`.  The method either
returns a point within `e` of `x` that is within `1.3e-5` segment lengths of both segments, or raises "The line segments must
intersect."  It returns if `x` is on both segments and further than `e / 9e-6` from the four end points. -/
theorem C121_intersect_line_segment (h : StdRounding u fl) (hu : u ≤ 1 / 10 ^ 11) [ext : NumpyExt ℝ] [hN : StableNumpy η] {a b c d x : E 2}
    {S T : LineSegment ℝ} (hS : @LineSegment.new ℝ (rounded fl) (arr a) (arr b) = .ok S)
    (hT : @LineSegment.new ℝ (rounded fl) (arr c) (arr d) = .ok T) {s : ℝ} (hs : s ≤ √(1 - cosE (b - a) (d - c) ^ 2))
    (hs0 : 12 / 10 ^ 5 ≤ s) (hxa : x ∈ lineSet a (b - a)) (hxc : x ∈ lineSet c (d - c)) {e : ℝ}
    (he : e = u * (2 * ‖a‖ + 524 * (dist x a + dist x c) / s ^ 2)) (check : Bool) :
    ((∃ y, @LineSegment.intersectLineSegment ℝ (rounded fl) ext S T check (@Tol.default ℝ (rounded fl)) = .ok (arr y) ∧ dist y x ≤ e ∧
        (∃ z ∈ segment ℝ a b, dist y z ≤ 13 / 1000000 * dist a b) ∧ ∃ z ∈ segment ℝ c d, dist y z ≤ 13 / 1000000 * dist c d) ∨
      @LineSegment.intersectLineSegment ℝ (rounded fl) ext S T check (@Tol.default ℝ (rounded fl)) =
        .error (.valueError "The line segments must intersect.")) ∧
    (x ∈ segment ℝ a b → x ∈ segment ℝ c d → (∀ z ∈ [a, b, c, d], x ≠ z ∧ e ≤ 9 / 1000000 * dist x z) →
      ∃ y : E 2, @LineSegment.intersectLineSegment ℝ (rounded fl) ext S T check (@Tol.default ℝ (rounded fl)) = .ok (arr y)) := by
  have hu0 := h.nonneg
  have hsp : 0 < s := lt_of_lt_of_le (by norm_num) hs0
  have hu2 : u ≤ 1 / 2 := by norm_num at hu; linarith
  have hu7 : ((2 : ℕ) + 7) * u ≤ 9 / 100000000000 := by norm_num at hu ⊢; linarith
  obtain ⟨-, hab, hSe⟩ := segment_new_rd h (by norm_num at hu ⊢; linarith) hS
  obtain ⟨-, hcd, hTe⟩ := segment_new_rd h (by norm_num at hu ⊢; linarith) hT
  have hd : b - a ≠ 0 := sub_ne_zero.mpr hab.symm
  have he' : d - c ≠ 0 := sub_ne_zero.mpr hcd.symm
  have hs1 : s ≤ 1 := by
    refine hs.trans (Real.sqrt_le_one.mpr ?_)
    have := sq_nonneg (cosE (b - a) (d - c)); linarith
  have hdet : s * (‖b - a‖ * ‖d - c‖) ≤ |det2E (b - a) (d - c)| := by
    rw [det2E_sine hd he', mul_comm]
    exact mul_le_mul_of_nonneg_left hs (by positivity)
  obtain ⟨w, hw, cw⟩ := (C114_line_from_points h hu2 a b).2 hab
  obtain ⟨v, hv, cv⟩ := (C114_line_from_points h hu2 c d).2 hcd
  have crd : ∀ {f g : E 2}, (∀ i, f i = fl (g i) ∧ |f i - g i| ≤ u * |g i|) → ‖f - g‖ ≤ u * ‖g‖ := by
    intro f g hfg
    refine le_of_sq_le_sq ?_ (by positivity)
    rw [mul_pow, EuclideanSpace.norm_sq_eq, EuclideanSpace.norm_sq_eq, Finset.mul_sum]
    refine Finset.sum_le_sum fun i _ => ?_
    rw [Real.norm_eq_abs, Real.norm_eq_abs, ← mul_pow]
    exact pow_le_pow_left₀ (abs_nonneg _) (hfg i).2 2
  have hw' : ‖w - (b - a)‖ ≤ u * ‖b - a‖ := crd cw
  have hv' : ‖v - (d - c)‖ ≤ u * ‖d - c‖ := crd cv
  obtain ⟨y, hy, hyx⟩ := meet_perturbed (η := η) h hu hd he' hdet hs0 hs1 hu0 (by norm_num at hu hs0; linarith) hw' hv' hxa hxc check
  have hye : dist y x ≤ e := by
    refine hyx.trans ?_
    obtain ⟨D, hD⟩ : ∃ D, D = dist x a + dist x c := ⟨_, rfl⟩
    have hD0 : 0 ≤ D := by rw [hD]; positivity
    have h1 : dist a c ≤ D := by rw [hD, dist_comm x a]; exact dist_triangle _ _ _
    rw [he, ← hD]
    have h2 : 520 * dist a c / s ^ 2 ≤ 520 * D / s ^ 2 := by gcongr
    have h3 : 4 * u / s * D ≤ u * (4 * D / s ^ 2) := by
      rw [div_mul_eq_mul_div, mul_div_assoc', div_le_div_iff₀ hsp (by positivity)]
      have : s ^ 2 ≤ s := by nlinarith
      have h4 : 0 ≤ 4 * u * D := by positivity
      nlinarith [mul_le_mul_of_nonneg_left this h4]
    have h5 := mul_le_mul_of_nonneg_left h2 hu0
    have h6 : 524 * D / s ^ 2 = 520 * D / s ^ 2 + 4 * D / s ^ 2 := by ring
    rw [h6]
    linarith
  obtain ⟨r1, hr1, -, n1⟩ := C81_contains_point h hu7 hS y
  obtain ⟨r2, hr2, -, n2⟩ := C81_contains_point h hu7 hT y
  obtain ⟨r1', hr1', p1, -⟩ := containsPoint_rd h hu7 a b y
  obtain ⟨r2', hr2', p2, -⟩ := containsPoint_rd h hu7 c d y
  rw [hSe] at hr1 ⊢
  rw [hTe] at hr2 ⊢
  rw [hr1, Except.ok.injEq] at hr1'
  rw [hr2, Except.ok.injEq] at hr2'
  subst hr1'
  subst hr2'
  have comp : @LineSegment.intersectLineSegment ℝ (rounded fl) ext ⟨arr a, arr b⟩ ⟨arr c, arr d⟩ check (@Tol.default ℝ (rounded fl)) =
      if !(r1 && r2) then .error (.valueError "The line segments must intersect.") else .ok (arr y) := by
    simp only [LineSegment.intersectLineSegment, hw, hv, ok_bind, hy, hr1, hr2, pure_ok]
  rw [comp]
  constructor
  · by_cases hr : r1 = true ∧ r2 = true
    · left
      exact ⟨y, by simp [hr.1, hr.2], hye, n1 hr.1, n2 hr.2⟩
    · right
      rw [if_pos]
      cases r1 <;> cases r2 <;> simp_all
  · intro hx1 hx2 hz
    have inner : ∀ {p q : E 2}, x ∈ segment ℝ p q → (x ≠ p ∧ e ≤ 9 / 1000000 * dist x p) → (x ≠ q ∧ e ≤ 9 / 1000000 * dist x q) →
        cosE (p - y) (q - y) ≤ -1 + 7 / 10000000000 := by
      intro p q hx hp hq
      have := cos_near_inner hx hp.1 hq.1 (ε := 9 / 1000000) (by norm_num) (hye.trans hp.2) (hye.trans hq.2)
      refine this.trans ?_
      norm_num
    have c1 := p1 (.inr (.inr (inner hx1 (hz a (by simp)) (hz b (by simp)))))
    have c2 := p2 (.inr (.inr (inner hx2 (hz c (by simp)) (hz d (by simp)))))
    exact ⟨y, by simp [c1, c2]⟩


/-! ### `is_close` of lines and planes -/

theorem isZero_tol_rd [NeZero n] (h : StdRounding u fl) (hu : u ≤ 1 / 4) {t s : ℝ} (ht : 0 ≤ t) (ht1 : t ≤ 1 / 4) (hs : 0 ≤ s) {x : E n}
    (hx : s < (1 - u) ^ (n + 2) * ‖x‖ ^ 2) : @Vec.isZero ℝ (rounded fl) ⟨t, s⟩ (arr x) = .ok false := by
  have hu0 := h.nonneg
  have h1 := h.dotv_self_rp le_rfl (CRP.refl (eps u) x)
  obtain ⟨D, hD⟩ : ∃ D, D = @dotv ℝ (rounded fl) (arr x) (arr x) := ⟨_, rfl⟩
  rw [← hD] at h1
  obtain ⟨b, hb, -, hb2⟩ := isclose_zero_abs_rd h hu (d := D) ht ht1 hs
  have hbf : b = false := by
    by_contra hc
    have h2 := hb2 (by simpa using hc)
    have h3 := h1.symm.le (h1.nonneg (by positivity))
    rw [exp_nat h (m := n + 1) (by push_cast; ring)] at h3
    have hp : 0 < (1 - u) ^ (n + 1) := pow_pos (by linarith) _
    rw [inv_mul_eq_div, le_div_iff₀ hp] at h3
    have h4 := le_abs_self D
    have h5 : (1 - u) ^ (n + 2) * ‖x‖ ^ 2 = (1 - u) * (‖x‖ ^ 2 * (1 - u) ^ (n + 1)) := by rw [pow_succ]; ring
    have h6 : (1 - u) * (‖x‖ ^ 2 * (1 - u) ^ (n + 1)) ≤ (1 - u) * |D| := mul_le_mul_of_nonneg_left (h3.trans h4) (by linarith)
    linarith
  simp only [Vec.isZero, dot_rd, ok_bind, ← hD, hb, hbf]

/-- `v.is_parallel(w, rel_tol=t, abs_tol=s)` under rounding. -/
theorem isParallel_tol_rd [NeZero n] (h : StdRounding u fl) (hu : (2 * n + 6) * u ≤ 4 / 10000000000) {t s : ℝ} (ht : 0 ≤ t) (ht1 : t ≤ 1 / 4)
    (hs : 0 ≤ s) {x y : E n} (hx : s < (1 - u) ^ (n + 2) * ‖x‖ ^ 2) (hy : s < (1 - u) ^ (n + 2) * ‖y‖ ^ 2) :
    ∃ b, @Vec.isParallel ℝ (rounded fl) ⟨t, s⟩ (arr x) (arr y) = .ok b ∧
      (1 - |cosE x y| + 6 / 10000000000 ≤ max t s → b = true) ∧ (b = true → 1 - |cosE x y| ≤ max t s + 6 / 10000000000) := by
  classical
  have hu0 := h.nonneg
  have hn1 : (1 : ℝ) ≤ n := by exact_mod_cast Nat.one_le_iff_ne_zero.mpr (NeZero.ne n)
  have hu1 : u ≤ 1 / 20000000000 := by nlinarith
  have nz : ∀ {z : E n}, s < (1 - u) ^ (n + 2) * ‖z‖ ^ 2 → z ≠ 0 := by
    rintro z hz rfl
    simp at hz; linarith
  obtain ⟨c, hc, hc1, he⟩ := cosine_rd h le_rfl le_rfl (CRP.refl _ x) (CRP.refl _ y) (nz hx) (nz hy)
  have hK : (2 * 0 + 2 * 0 + 2 * n + 6 : ℝ) = ((2 * n + 6 : ℕ) : ℝ) := by push_cast; ring
  rw [hK] at he
  have hb := exp_eps_le h (2 * n + 6) (b := 41 / 100000000000) (by norm_num) (by push_cast; linarith)
  have hd : |(|c| - |cosE x y|)| ≤ 41 / 100000000000 := (abs_abs_sub_abs_le _ _).trans (he.trans hb)
  rw [abs_le] at hd
  refine ⟨_, by simp only [Vec.isParallel, isZero_tol_rd h (by linarith) ht ht1 hs hx, isZero_tol_rd h (by linarith) ht ht1 hs hy, new1D_rd,
    ok_bind, Bool.false_eq_true, if_false, hc, abs_rd]; exact isclose_rd fl t s |c| _ ht hs, ?_, ?_⟩
  · intro hm
    rw [decide_eq_true_eq, one_rd]
    have h0 : 0 ≤ 1 - |c| := by linarith
    have h1 := abs_fl_le h (1 - |c|)
    rw [abs_of_nonneg h0] at h1
    have h2 : (1 + u) * (1 - |c|) ≤ 1 - |cosE x y| + 5 / 10000000000 := by
      have : u * (1 - |c|) ≤ u * 1 := mul_le_mul_of_nonneg_left (by linarith [abs_nonneg c]) hu0
      linarith
    rcases le_max_iff.mp hm with h3 | h3
    · right; left
      have h4 := le_abs_fl h (t * 1)
      rw [mul_one, abs_of_nonneg ht] at h4
      have : u * t ≤ u * 1 := mul_le_mul_of_nonneg_left (by linarith) hu0
      rw [mul_one]
      linarith
    · right; right; right
      linarith
  · intro hb
    rw [decide_eq_true_eq, one_rd] at hb
    have h0 : 0 ≤ 1 - |c| := by linarith
    have h1 := le_abs_fl h (1 - |c|)
    rw [abs_of_nonneg h0] at h1
    have g : u * (1 - |c|) ≤ u * 1 := mul_le_mul_of_nonneg_left (by linarith [abs_nonneg c]) hu0
    have ht' : u * t ≤ u * 1 := mul_le_mul_of_nonneg_left (by linarith) hu0
    have m1 := le_max_left t s
    have m2 := le_max_right t s
    rcases hb with h2 | h2 | h2 | h2
    · rw [h2] at hd; linarith
    · have h3 := abs_fl_le h (t * 1)
      rw [mul_one, abs_of_nonneg ht] at h3
      rw [mul_one] at h2
      linarith
    · have h3 := abs_fl_le h (t * |c|)
      rw [abs_of_nonneg (mul_nonneg ht (abs_nonneg c))] at h3
      have h4 : (1 + u) * (t * |c|) ≤ (1 + u) * t := mul_le_mul_of_nonneg_left (by nlinarith [abs_nonneg c]) (by linarith)
      linarith
    · linarith

theorem isclose_line_const (h : StdRounding u fl) (hn : 1 ≤ n) (hu : (2 * n + 6) * u ≤ 4 / 10000000000) {D P W s : ℝ} (hD : 0 ≤ D) (hP : 0 ≤ P) (hDW : D ≤ W) :
    (D + u * (3 * P + (6 * n + 21) * W) ≤ s → (1 + u) * (((1 - u) ^ ((n + 5) / 2 : ℝ))⁻¹ * (D + (((1 - u)⁻¹ - 1) * P + (((1 - u) ^ (2 * n + 6))⁻¹ - 1) * W))) ≤ s) ∧
    ((1 - u) * ((1 - u) ^ ((n + 5) / 2 : ℝ) * (D - (((1 - u)⁻¹ - 1) * P + (((1 - u) ^ (2 * n + 6))⁻¹ - 1) * W))) ≤ s → 0 ≤ s →
      D ≤ s + u * (3 * P + (6 * n + 21) * W)) := by
  have hu0 := h.nonneg
  have hn1 : (1 : ℝ) ≤ n := by exact_mod_cast hn
  have hu1 : u ≤ 1 / 20000000000 := by nlinarith
  have hlt : u < 1 := h.lt_one
  have hW : 0 ≤ W := hD.trans hDW
  have nu : (n : ℝ) * u ≤ 2 / 10000000000 := by nlinarith
  -- the factors
  have a1 : ((1 - u) ^ ((n + 5) / 2 : ℝ))⁻¹ - 1 ≤ (n + 5) * u := by
    have := exp_eps_le2 h (k := (n + 5) / 2) (by linarith) (by nlinarith)
    rw [h.exp_eps] at this
    linarith
  have a2 : (1 - u)⁻¹ - 1 ≤ 2 * u := by
    have := exp_eps_le2 h (k := 1) le_rfl (by linarith)
    rw [h.exp_eps, Real.rpow_one] at this
    linarith
  have a3 : ((1 - u) ^ (2 * n + 6))⁻¹ - 1 ≤ (4 * n + 12) * u := by
    have := exp_eps_le2 h (k := ((2 * n + 6 : ℕ) : ℝ)) (by push_cast; linarith) (by push_cast; nlinarith)
    rw [exp_nat h (m := 2 * n + 6) rfl] at this
    push_cast at this
    linarith
  obtain ⟨K, hK⟩ : ∃ K, K = ((1 - u) ^ ((n + 5) / 2 : ℝ)) := ⟨_, rfl⟩
  have hK0 : 0 < K := by rw [hK]; exact Real.rpow_pos_of_pos (by linarith) _
  have hK1 : K ≤ 1 := by rw [hK]; exact Real.rpow_le_one (by linarith) (by linarith) (by linarith)
  rw [← hK] at a1 ⊢
  obtain ⟨β, hβ⟩ : ∃ β, β = (1 - u)⁻¹ - 1 := ⟨_, rfl⟩
  obtain ⟨γ, hγ⟩ : ∃ γ, γ = ((1 - u) ^ (2 * n + 6))⁻¹ - 1 := ⟨_, rfl⟩
  rw [← hβ] at a2 ⊢
  rw [← hγ] at a3 ⊢
  have hβ0 : 0 ≤ β := by rw [hβ]; linarith [(one_le_inv₀ (by linarith : 0 < 1 - u)).mpr (by linarith)]
  have hγ0 : 0 ≤ γ := by
    rw [hγ]
    have := (one_le_inv₀ (pow_pos (by linarith : 0 < 1 - u) (2 * n + 6))).mpr (pow_le_one₀ (by linarith) (by linarith))
    linarith
  have e1 : β * P ≤ 2 * u * P := mul_le_mul_of_nonneg_right a2 hP
  have e2 : γ * W ≤ (4 * n + 12) * u * W := mul_le_mul_of_nonneg_right a3 hW
  have uP := mul_nonneg hu0 hP
  have uW := mul_nonneg hu0 hW
  have nuW : 0 ≤ n * (u * W) := by positivity
  constructor
  · intro hs
    refine le_trans ?_ hs
    have b1 : (1 + u) * K⁻¹ ≤ 1 + (n + 7) * u := by
      have : (1 + u) * K⁻¹ ≤ (1 + u) * (1 + (n + 5) * u) := mul_le_mul_of_nonneg_left (by linarith) (by linarith)
      nlinarith
    have b2 : 0 ≤ D + (β * P + γ * W) := by positivity
    rw [← mul_assoc]
    refine (mul_le_mul_of_nonneg_right b1 b2).trans ?_
    have b3 : (n + 7) * u * D ≤ (n + 7) * u * W := mul_le_mul_of_nonneg_left hDW (by positivity)
    have b4 : (n + 7) * u ≤ 1 / 100 := by linarith
    have b5 : (n + 7) * u * (β * P + γ * W) ≤ 1 / 100 * (2 * u * P + (4 * n + 12) * u * W) :=
      mul_le_mul b4 (by linarith) (by positivity) (by norm_num)
    nlinarith
  · intro hs hs0
    rcases le_or_gt (D - (β * P + γ * W)) 0 with hc | hc
    · nlinarith
    have b1 : 1 - (n + 7) * u ≤ (1 - u) * K := by
      have hk : 1 - (n + 5) * u ≤ K := by
        have : 1 ≤ K * (1 + (n + 5) * u) := by
          have : K * K⁻¹ ≤ K * (1 + (n + 5) * u) := mul_le_mul_of_nonneg_left (by linarith) hK0.le
          rwa [mul_inv_cancel₀ hK0.ne'] at this
        nlinarith [mul_nonneg (by positivity : (0:ℝ) ≤ (n + 5) * u) (by linarith : 0 ≤ 1 - K)]
      nlinarith [mul_nonneg hu0 hK0.le]
    rw [← mul_assoc] at hs
    have b2 := mul_le_mul_of_nonneg_right b1 hc.le
    have b3 : (n + 7) * u * (D - (β * P + γ * W)) ≤ (n + 7) * u * W := mul_le_mul_of_nonneg_left (by
      have : 0 ≤ β * P + γ * W := by positivity
      linarith) (by positivity)
    nlinarith

/-- C121: `line.is_close(other, rel_tol=t, abs_tol=s)` under rounding, for directions whose squares exceed the absolute tolerance: the
result is decided by the distance `D` of the other line's point from the line and by the angle of the directions; `True` if `D` plus
`u (3 ‖p‖ + (6n + 21) |pq|)` is at most `s` and `1 - |cos| + 6e-10` at most `max t s`, and only if these hold up to the same errors. -/
theorem C121_line_is_close [NeZero n] (h : StdRounding u fl) (hu : (2 * n + 6) * u ≤ 4 / 10000000000) {p d q e : E n} {L M : Line ℝ}
    (hL : @Line.new ℝ (rounded fl) (arr p) (arr d) = .ok L) (hM : @Line.new ℝ (rounded fl) (arr q) (arr e) = .ok M) {t s : ℝ} (ht : 0 ≤ t)
    (ht1 : t ≤ 1 / 4) (hs : 0 ≤ s) (hd : s < (1 - u) ^ (n + 2) * ‖d‖ ^ 2) (he : s < (1 - u) ^ (n + 2) * ‖e‖ ^ 2) :
    ∃ b, @Line.isClose ℝ (rounded fl) ⟨t, s⟩ L (.line M) = .ok b ∧
      (dist q (foot p d q) + u * (3 * ‖p‖ + (6 * n + 21) * dist q p) ≤ s → 1 - |cosE d e| + 6 / 10000000000 ≤ max t s → b = true) ∧
      (b = true → dist q (foot p d q) ≤ s + u * (3 * ‖p‖ + (6 * n + 21) * dist q p) ∧ 1 - |cosE d e| ≤ max t s + 6 / 10000000000) := by
  have hu0 := h.nonneg
  have hn : 1 ≤ n := Nat.one_le_iff_ne_zero.mpr (NeZero.ne n)
  have hn1 : (1 : ℝ) ≤ n := by exact_mod_cast hn
  have hu1 : u ≤ 1 / 20000000000 := by nlinarith
  obtain ⟨hd0, rfl⟩ := line_new_rd h (by linarith) hL
  obtain ⟨he0, rfl⟩ := line_new_rd h (by linarith) hM
  obtain ⟨b1, hb1, p1, q1⟩ := C79_line_contains h (by linarith) p d q hd0 ht ht1 hs
  obtain ⟨b2, hb2, p2, q2⟩ := isParallel_tol_rd h hu ht ht1 hs hd he
  obtain ⟨k1, k2⟩ := isclose_line_const (D := dist q (foot p d q)) (P := ‖p‖) (W := dist q p) (s := s) h hn hu dist_nonneg (norm_nonneg p)
    (by simpa using foot_dist_le p d q hd0 0)
  refine ⟨b1 && b2, by simp only [Line.isClose, hb1, hb2, ok_bind, pure_ok], fun g1 g2 => ?_, fun hb => ?_⟩
  · rw [p1 (k1 g1), p2 g2]; rfl
  · rw [Bool.and_eq_true] at hb
    exact ⟨k2 (q1 hb.1) hs, q2 hb.2⟩

/-- C121: `plane.is_close(other, rel_tol=t, abs_tol=s)` under rounding, likewise. -/
theorem C121_plane_is_close [NeZero n] (h : StdRounding u fl) (hu : (2 * n + 6) * u ≤ 4 / 10000000000) {p d q e : E n} {P Q : Plane ℝ}
    (hP : @Plane.new ℝ (rounded fl) (arr p) (arr d) = .ok P) (hQ : @Plane.new ℝ (rounded fl) (arr q) (arr e) = .ok Q) {t s : ℝ} (ht : 0 ≤ t)
    (ht1 : t ≤ 1 / 4) (hs : 0 ≤ s) (hd : s < (1 - u) ^ (n + 2) * ‖d‖ ^ 2) (he : s < (1 - u) ^ (n + 2) * ‖e‖ ^ 2) :
    ∃ b, @Plane.isClose ℝ (rounded fl) ⟨t, s⟩ P (.plane Q) = .ok b ∧
      (|signedDist p d q| + u * ((3 * n + 11) * dist q p) ≤ s → 1 - |cosE d e| + 6 / 10000000000 ≤ max t s → b = true) ∧
      (b = true → |signedDist p d q| ≤ s + u * ((3 * n + 11) * dist q p) ∧ 1 - |cosE d e| ≤ max t s + 6 / 10000000000) := by
  have hu0 := h.nonneg
  have hn : 1 ≤ n := Nat.one_le_iff_ne_zero.mpr (NeZero.ne n)
  have hn1 : (1 : ℝ) ≤ n := by exact_mod_cast hn
  have hu1 : u ≤ 1 / 20000000000 := by nlinarith
  have nu : (n : ℝ) * u ≤ 2 / 10000000000 := by nlinarith
  obtain ⟨hd0, rfl⟩ := plane_new_rd h (by linarith) hP
  obtain ⟨he0, rfl⟩ := plane_new_rd h (by linarith) hQ
  obtain ⟨b1, hb1, p1, q1⟩ := C79_plane_contains h (by linarith) p d q hd0 ht ht1 hs
  obtain ⟨b2, hb2, p2, q2⟩ := isParallel_tol_rd h hu ht ht1 hs hd he
  have a1 : ((1 - u) ^ ((3 * n + 9) / 2 : ℝ))⁻¹ - 1 ≤ (3 * n + 9) * u := by
    have := exp_eps_le2 h (k := (3 * n + 9) / 2) (by linarith) (by nlinarith)
    rw [h.exp_eps] at this
    linarith
  have a0 : 0 ≤ ((1 - u) ^ ((3 * n + 9) / 2 : ℝ))⁻¹ - 1 := by
    have := one_le_exp_eps h (k := (3 * n + 9) / 2) (by positivity)
    rw [h.exp_eps] at this
    linarith
  obtain ⟨α, hα⟩ : ∃ α, α = ((1 - u) ^ ((3 * n + 9) / 2 : ℝ))⁻¹ - 1 := ⟨_, rfl⟩
  rw [← hα] at a1 a0 p1 q1
  have hSW : |signedDist p d q| ≤ dist q p := by
    rw [← signedDist_eq, dist_eq_norm]
    refine (abs_real_inner_le_norm _ _).trans ?_
    rw [norm_unit hd0, one_mul]
  obtain ⟨S, hS⟩ : ∃ S, S = |signedDist p d q| := ⟨_, rfl⟩
  have hS0 : 0 ≤ S := by rw [hS]; positivity
  rw [← hS] at p1 q1 hSW ⊢
  obtain ⟨W, hW⟩ : ∃ W, W = dist q p := ⟨_, rfl⟩
  rw [← hW] at p1 q1 hSW ⊢
  have hW0 : 0 ≤ W := hS0.trans hSW
  have e1 := mul_le_mul_of_nonneg_right a1 hW0
  have e2 : u * S ≤ u * W := mul_le_mul_of_nonneg_left hSW hu0
  have e3 : u * (α * W) ≤ u * W := by
    refine mul_le_mul_of_nonneg_left ?_ hu0
    have : α ≤ 1 := by linarith
    nlinarith
  have e4 : 0 ≤ α * W := by positivity
  refine ⟨b1 && b2, by simp only [Plane.isClose, hb1, hb2, ok_bind, pure_ok], fun g1 g2 => ?_, fun hb => ?_⟩
  · rw [p1 (by nlinarith), p2 g2]; rfl
  · rw [Bool.and_eq_true] at hb
    have := q1 hb.1
    exact ⟨by nlinarith [mul_nonneg hu0 e4], q2 hb.2⟩

/-- C121 (defect, exact arithmetic): with `abs_tol = s > 0`, two lines with the same point are close whenever the square of the
first direction is at most `s`, whatever the angle between them, for example when they are perpendicular: `is_parallel` takes the
short direction for the zero vector. -/
theorem C121_is_close_defect [NeZero n] {p d e : E n} {t s : ℝ} (ht : 0 ≤ t) (hs : 0 ≤ s) {L M : Line ℝ} (hL : Line.new (arr p) (arr d) = .ok L)
    (hM : Line.new (arr p) (arr e) = .ok M) (hd : ‖d‖ ^ 2 ≤ s) : L.isClose ⟨t, s⟩ (.line M) = .ok true := by
  classical
  obtain ⟨-, hd0, rfl⟩ := Line.new_ok hL
  obtain ⟨-, he0, rfl⟩ := Line.new_ok hM
  have hN : Tol.Nonneg (⟨t, s⟩ : Tol ℝ) := ⟨ht, hs⟩
  have h1 : Close ⟨t, s⟩ (dist p (footE p d p)) 0 := by
    rw [(dist_footE_eq_zero hd0).mpr ⟨0, by simp⟩]
    simp [Close, hs]
  have h2 : Close ⟨t, s⟩ (‖d‖ ^ 2) 0 := by
    simp only [Close, sub_zero, abs_of_nonneg (sq_nonneg ‖d‖)]
    exact hd.trans (le_max_right _ _)
  simp only [Line.isClose, Line.containsPoint_arr _ _ _ hN, Vec.isParallel, isZero_arr hN, ok_bind, h1, h2, decide_true, if_true, pure_ok,
    Bool.and_self]

/-! ## Concrete cases, binary64 rounding -/

/-- The diagonals of the square with corners `(0, 0)` and `(2, 2)`. -/
example (ext : NumpyExt ℝ) (hl : @LawfulNumpy ext) : ∃ S T y,
    @LineSegment.new ℝ (rounded (leftToRight (roundNearest 53))) (arr (vec2 0 0)) (arr (vec2 2 2)) = .ok S ∧
    @LineSegment.new ℝ (rounded (leftToRight (roundNearest 53))) (arr (vec2 0 2)) (arr (vec2 2 0)) = .ok T ∧
    @LineSegment.intersectLineSegment ℝ (rounded (leftToRight (roundNearest 53))) ext S T true
      (@Tol.default ℝ (rounded (leftToRight (roundNearest 53)))) = .ok (arr y) ∧ dist y (vec2 1 1) ≤ 1 / 10 ^ 12 := by
  have := @StableNumpy.of_lawful ext hl
  have hs := std53
  have hS := (C81_constructor hs (by norm_num) (vec2 0 0) (vec2 2 2)).2 0 (by norm_num [vec2])
  have hT := (C81_constructor hs (by norm_num) (vec2 0 2) (vec2 2 0)).2 0 (by norm_num [vec2])
  have hc : cosE (vec2 2 2 - vec2 0 0) (vec2 2 0 - vec2 0 2) = 0 := by
    rw [cosE, inner2]; simp [vec2]
  have nrm : ∀ {x : E 2}, x 0 ^ 2 + x 1 ^ 2 = 2 → ‖x‖ = √2 := by
    intro x hx
    rw [← Real.sqrt_sq (norm_nonneg x), norm_sq2, hx]
  have d1 : dist (vec2 1 1) (vec2 0 0) = √2 := by rw [dist_eq_norm]; exact nrm (by norm_num [vec2])
  have d2 : dist (vec2 1 1) (vec2 0 2) = √2 := by rw [dist_eq_norm]; exact nrm (by norm_num [vec2])
  have d3 : dist (vec2 1 1) (vec2 2 2) = √2 := by rw [dist_eq_norm]; exact nrm (by norm_num [vec2])
  have d4 : dist (vec2 1 1) (vec2 2 0) = √2 := by rw [dist_eq_norm]; exact nrm (by norm_num [vec2])
  have n0 : ‖vec2 0 0‖ = 0 := by rw [← Real.sqrt_sq (norm_nonneg _), norm_sq2]; norm_num [vec2]
  have hr := sqrt2_le
  have hr1 : 1 ≤ √2 := Real.one_le_sqrt.mpr (by norm_num)
  have mid : ∀ p q : E 2, p + q = vec2 2 2 → vec2 1 1 ∈ segment ℝ p q := by
    intro p q hpq
    refine ⟨1 / 2, 1 / 2, by norm_num, by norm_num, by norm_num, ?_⟩
    rw [← smul_add, hpq]
    ext i; fin_cases i <;> norm_num [vec2]
  have hm1 : vec2 1 1 ∈ segment ℝ (vec2 0 0) (vec2 2 2) := mid _ _ (by ext i; fin_cases i <;> norm_num [vec2])
  have hm2 : vec2 1 1 ∈ segment ℝ (vec2 0 2) (vec2 2 0) := mid _ _ (by ext i; fin_cases i <;> norm_num [vec2])
  have key := C121_intersect_line_segment (η := 0) (x := vec2 1 1) (s := 1) hs (by norm_num) hS hT (by rw [hc]; norm_num) (by norm_num)
    ⟨1 / 2, by ext i; fin_cases i <;> norm_num [vec2]⟩ ⟨1 / 2, by ext i; fin_cases i <;> norm_num [vec2]⟩ rfl true
  rw [d1, d2, n0] at key
  have hE : (2 : ℝ) ^ (-(53 : ℕ) : ℤ) * (2 * 0 + 524 * (√2 + √2) / 1 ^ 2) ≤ 1 / 10 ^ 12 := by
    have : (2 : ℝ) * 0 + 524 * (√2 + √2) / 1 ^ 2 ≤ 1572 := by linarith
    refine (mul_le_mul_of_nonneg_left this (by positivity)).trans (by norm_num)
  obtain ⟨y, hy⟩ := key.2 hm1 hm2 (by
    intro z hz
    have hd : dist (vec2 1 1) z = √2 := by
      simp only [List.mem_cons, List.not_mem_nil, or_false] at hz
      rcases hz with rfl | rfl | rfl | rfl <;> assumption
    refine ⟨fun he => ?_, ?_⟩
    · rw [← he, dist_self] at hd; linarith
    · rw [hd]
      have : (1 : ℝ) / 10 ^ 12 ≤ 9 / 1000000 * √2 := by linarith
      exact hE.trans this)
  refine ⟨_, _, y, hS, hT, hy, ?_⟩
  rcases key.1 with ⟨y', hy', hd, -⟩ | he
  · rw [hy] at hy'
    cases arr_injective (Except.ok.inj hy')
    exact hd.trans hE
  · rw [hy] at he; cases he

/-- The x-axis is close to the line through `(5, 1e-7)` with direction `(2, 0)` and not to the one through `(5, 1e-5)`, for
`abs_tol=1e-6`. -/
example : ∃ L M N, @Line.new ℝ (rounded (leftToRight (roundNearest 53))) (arr (vec2 0 0)) (arr (vec2 1 0)) = .ok L ∧
    @Line.new ℝ (rounded (leftToRight (roundNearest 53))) (arr (vec2 5 (1 / 10 ^ 7))) (arr (vec2 2 0)) = .ok M ∧
    @Line.new ℝ (rounded (leftToRight (roundNearest 53))) (arr (vec2 5 (1 / 10 ^ 5))) (arr (vec2 2 0)) = .ok N ∧
    @Line.isClose ℝ (rounded (leftToRight (roundNearest 53))) ⟨1 / 10 ^ 9, 1 / 10 ^ 6⟩ L (.line M) = .ok true ∧
    @Line.isClose ℝ (rounded (leftToRight (roundNearest 53))) ⟨1 / 10 ^ 9, 1 / 10 ^ 6⟩ L (.line N) = .ok false := by
  have hs := std53
  have n1 : ‖vec2 1 0‖ = 1 := by rw [← Real.sqrt_sq (norm_nonneg _), norm_sq2]; norm_num [vec2]
  have n2 : ‖vec2 2 0‖ = 2 := by
    rw [← Real.sqrt_sq (norm_nonneg _), norm_sq2, show (vec2 2 0 0 : ℝ) ^ 2 + (vec2 2 0 1 : ℝ) ^ 2 = 2 ^ 2 by norm_num [vec2],
      Real.sqrt_sq (by norm_num)]
  have v1 : vec2 1 0 ≠ 0 := fun h0 => by rw [h0, norm_zero] at n1; norm_num at n1
  have v2 : vec2 2 0 ≠ 0 := fun h0 => by rw [h0, norm_zero] at n2; norm_num at n2
  have n0 : ‖vec2 0 0‖ = 0 := by rw [← Real.sqrt_sq (norm_nonneg _), norm_sq2]; norm_num [vec2]
  have hc : cosE (vec2 1 0) (vec2 2 0) = 1 := by
    rw [cosE, inner2, n1, n2]; norm_num [vec2]
  have hL := ((C73_constructors hs (by norm_num) (vec2 0 0) (vec2 1 0)).1 v1).1
  have hf : ∀ y : ℝ, 0 ≤ y → dist (vec2 5 y) (foot (vec2 0 0) (vec2 1 0) (vec2 5 y)) = y := by
    intro y hy
    have : foot (vec2 0 0) (vec2 1 0) (vec2 5 y) = vec2 5 0 := by
      rw [foot, inner2, n1]
      ext i; fin_cases i <;> norm_num [vec2]
    rw [this, dist_eq_norm, ← Real.sqrt_sq (norm_nonneg _), norm_sq2]
    norm_num [vec2, abs_of_nonneg hy, Real.sqrt_sq_eq_abs]
  have hd : ∀ y : ℝ, 0 ≤ y → y ≤ 1 → dist (vec2 5 y) (vec2 0 0) ≤ 6 := by
    intro y hy hy1
    rw [dist_eq_norm]
    refine le_of_sq_le_sq ?_ (by norm_num)
    rw [norm_sq2]
    norm_num [vec2]; nlinarith
  have hm := fun y => ((C73_constructors hs (by norm_num) (vec2 5 y) (vec2 2 0)).1 v2).1
  have key := fun y => C121_line_is_close hs (by norm_num) hL (hm y) (t := 1 / 10 ^ 9) (s := 1 / 10 ^ 6) (by norm_num) (by norm_num)
    (by norm_num) (by rw [n1]; norm_num) (by rw [n2]; norm_num)
  obtain ⟨b1, h1, t1, -⟩ := key (1 / 10 ^ 7)
  obtain ⟨b2, h2, -, f2⟩ := key (1 / 10 ^ 5)
  rw [hf _ (by norm_num), n0, hc] at t1 f2
  have e1 := hd (1 / 10 ^ 7) (by norm_num) (by norm_num)
  have e2 := hd (1 / 10 ^ 5) (by norm_num) (by norm_num)
  refine ⟨_, _, _, hL, hm _, hm _, ?_, ?_⟩
  · rw [h1, t1 (by norm_num; linarith) (by norm_num)]
  · rw [h2]
    congr 1
    by_contra hb
    have := (f2 (by simpa using hb)).1
    norm_num at this
    linarith

/-- The plane `z = 0` is close to the plane through `(5, 1, 1e-7)` with normal `(0, 0, 2)`, for `abs_tol=1e-6`. -/
example : ∃ P Q, @Plane.new ℝ (rounded (leftToRight (roundNearest 53))) (arr (vec3 0 0 0)) (arr (vec3 0 0 1)) = .ok P ∧
    @Plane.new ℝ (rounded (leftToRight (roundNearest 53))) (arr (vec3 5 1 (1 / 10 ^ 7))) (arr (vec3 0 0 2)) = .ok Q ∧
    @Plane.isClose ℝ (rounded (leftToRight (roundNearest 53))) ⟨1 / 10 ^ 9, 1 / 10 ^ 6⟩ P (.plane Q) = .ok true := by
  have hs := std53
  have n1 : ‖vec3 0 0 1‖ = 1 := by
    rw [← Real.sqrt_sq (norm_nonneg _), norm_sq3]; simp only [vec3, PiLp.toLp_apply, Matrix.cons_val]; norm_num
  have n2 : ‖vec3 0 0 2‖ = 2 := by
    rw [← Real.sqrt_sq (norm_nonneg _), norm_sq3]
    simp only [vec3, PiLp.toLp_apply, Matrix.cons_val]
    rw [show (0 : ℝ) ^ 2 + 0 ^ 2 + 2 ^ 2 = 2 ^ 2 by norm_num, Real.sqrt_sq (by norm_num)]
  have v1 : vec3 0 0 1 ≠ 0 := fun h0 => by rw [h0, norm_zero] at n1; norm_num at n1
  have v2 : vec3 0 0 2 ≠ 0 := fun h0 => by rw [h0, norm_zero] at n2; norm_num at n2
  have hc : cosE (vec3 0 0 1) (vec3 0 0 2) = 1 := by
    rw [cosE, inner3, n1, n2]; simp only [vec3, PiLp.toLp_apply, Matrix.cons_val]; norm_num
  have hP := ((C73_constructors hs (by norm_num) (vec3 0 0 0) (vec3 0 0 1)).1 v1).2
  have hQ := ((C73_constructors hs (by norm_num) (vec3 5 1 (1 / 10 ^ 7)) (vec3 0 0 2)).1 v2).2
  obtain ⟨b, hb, t, -⟩ := C121_plane_is_close hs (by norm_num) hP hQ (t := 1 / 10 ^ 9) (s := 1 / 10 ^ 6) (by norm_num) (by norm_num)
    (by norm_num) (by rw [n1]; norm_num) (by rw [n2]; norm_num)
  refine ⟨_, _, hP, hQ, ?_⟩
  have hd : dist (vec3 5 1 (1 / 10 ^ 7)) (vec3 0 0 0) ≤ 6 := by
    rw [dist_eq_norm]
    refine le_of_sq_le_sq ?_ (by norm_num)
    rw [norm_sq3]
    simp only [vec3, PiLp.toLp_apply, PiLp.sub_apply, Matrix.cons_val]; norm_num
  have hsd : signedDist (vec3 0 0 0) (vec3 0 0 1) (vec3 5 1 (1 / 10 ^ 7)) = 1 / 10 ^ 7 := by
    rw [signedDist, inner3, n1]
    simp only [vec3, PiLp.toLp_apply, PiLp.sub_apply, Matrix.cons_val]; norm_num
  rw [hb, t ?_ (by rw [hc]; norm_num)]
  rw [hsd, abs_of_pos (by norm_num)]
  norm_num
  linarith

/-- Perpendicular lines through the origin, one with direction `(1e-4, 0)`, are close for `abs_tol=1e-8`. -/
example : ∃ L M, Line.new (arr (vec2 0 0)) (arr (vec2 (1 / 10 ^ 4) 0)) = .ok L ∧ Line.new (arr (vec2 0 0)) (arr (vec2 0 1)) = .ok M ∧
    L.isClose ⟨1 / 10 ^ 9, 1 / 10 ^ 8⟩ (.line M) = .ok true := by
  have hL := Line.new_arr (vec2 0 0) (d := vec2 (1 / 10 ^ 4) 0) (by
    intro h0; have := congrArg (fun v : E 2 => v 0) h0; norm_num [vec2] at this)
  have hM := Line.new_arr (vec2 0 0) (d := vec2 0 1) (by
    intro h0; have := congrArg (fun v : E 2 => v 1) h0; norm_num [vec2] at this)
  exact ⟨_, _, hL, hM, C121_is_close_defect (by norm_num) (by norm_num) hL hM (by rw [norm_sq2]; norm_num [vec2])⟩

end SkSpatial
