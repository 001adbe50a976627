import Verif.Props.Rounding31
import Verif.Props.Altitude
/-! # C126: intersections of segments and orthocenters in space, under rounding -/

namespace SkSpatial
open StdRounding

variable {u η : ℝ} {fl : Arith} {n : ℕ}

/-- The sine of the angle is the distance of the unit vector from the multiples of the other. -/
theorem sine_le_unit {d e : E n} (hd : d ≠ 0) (he : e ≠ 0) (t : ℝ) : √(1 - cosE d e ^ 2) ≤ ‖‖d‖⁻¹ • d - t • (‖e‖⁻¹ • e)‖ := by
  rw [← Real.sqrt_sq (norm_nonneg (_ - _))]
  refine Real.sqrt_le_sqrt ?_
  have hd0 := norm_pos_iff.mpr hd
  have he0 := norm_pos_iff.mpr he
  have h1 : (inner ℝ (‖d‖⁻¹ • d) (‖e‖⁻¹ • e) : ℝ) = cosE d e := by
    rw [real_inner_smul_left, real_inner_smul_right, cosE]; field_simp
  rw [norm_sub_sq_real, norm_unit hd, real_inner_smul_right, h1, norm_smul, norm_unit he, Real.norm_eq_abs, mul_one, sq_abs]
  nlinarith [sq_nonneg (t - cosE d e)]

theorem sine_eq_unit {d e : E n} (hd : d ≠ 0) (he : e ≠ 0) : √(1 - cosE d e ^ 2) = ‖‖d‖⁻¹ • d - cosE d e • (‖e‖⁻¹ • e)‖ := by
  rw [← Real.sqrt_sq (norm_nonneg (_ - _))]
  congr 1
  have hd0 := norm_pos_iff.mpr hd
  have he0 := norm_pos_iff.mpr he
  have h1 : (inner ℝ (‖d‖⁻¹ • d) (‖e‖⁻¹ • e) : ℝ) = cosE d e := by
    rw [real_inner_smul_left, real_inner_smul_right, cosE]; field_simp
  rw [norm_sub_sq_real, norm_unit hd, real_inner_smul_right, h1, norm_smul, norm_unit he, Real.norm_eq_abs, mul_one, sq_abs]
  ring

/-- `t w - r v` is at least as long as `t w` times the sine. -/
theorem sine_le {w v : E n} (hw : w ≠ 0) (hv : v ≠ 0) (t r : ℝ) : |t| * ‖w‖ * √(1 - cosE w v ^ 2) ≤ ‖t • w - r • v‖ := by
  by_cases ht : t = 0
  · simp [ht]
  have hw0 := norm_pos_iff.mpr hw
  have hv0 := norm_pos_iff.mpr hv
  have h1 := sine_le_unit hw hv (r * ‖v‖ / (t * ‖w‖))
  have h2 : t • w - r • v = (t * ‖w‖) • (‖w‖⁻¹ • w - (r * ‖v‖ / (t * ‖w‖)) • (‖v‖⁻¹ • v)) := by
    rw [smul_sub, smul_smul, smul_smul, smul_smul, mul_assoc, mul_inv_cancel₀ hw0.ne', mul_one]
    congr 2
    field_simp
  rw [h2, norm_smul, Real.norm_eq_abs, abs_mul, abs_of_pos hw0]
  exact mul_le_mul_of_nonneg_left h1 (by positivity)

/-- Directions that are perturbed a little have a slightly perturbed angle. -/
theorem sine_perturb_space {d e w v : E n} {s δ : ℝ} (hd : d ≠ 0) (he : e ≠ 0) (hs : s ≤ √(1 - cosE d e ^ 2)) (hδ : 8 * δ ≤ s)
    (hδ0 : 0 ≤ δ) (hw : ‖w - d‖ ≤ δ * ‖d‖) (hv : ‖v - e‖ ≤ δ * ‖e‖) : w ≠ 0 ∧ v ≠ 0 ∧ s / 2 ≤ √(1 - cosE w v ^ 2) := by
  have hs1 : s ≤ 1 := by
    refine hs.trans (Real.sqrt_le_one.mpr ?_)
    have := sq_nonneg (cosE d e); linarith
  have key : ∀ {z y : E n}, y ≠ 0 → ‖z - y‖ ≤ δ * ‖y‖ → z ≠ 0 ∧ ‖‖z‖⁻¹ • z - ‖y‖⁻¹ • y‖ ≤ 2 * δ := by
    intro z y hy hz
    have hy0 := norm_pos_iff.mpr hy
    have hz0 : z ≠ 0 := by
      intro h0
      rw [h0, zero_sub, norm_neg] at hz
      nlinarith
    refine ⟨hz0, ?_⟩
    have e3 : ‖‖y‖⁻¹ • z - ‖y‖⁻¹ • y‖ ≤ δ := by
      rw [← smul_sub, norm_smul, norm_inv, norm_norm, inv_mul_le_iff₀ hy0, mul_comm]; exact hz
    have e4 := unit_near (norm_unit hy) (smul_ne_zero (inv_ne_zero hy0.ne') hz0) e3
    rwa [norm_smul, norm_inv, norm_norm, smul_smul, mul_inv, inv_inv, mul_assoc, mul_comm (‖z‖⁻¹), ← mul_assoc,
      mul_inv_cancel₀ hy0.ne', one_mul] at e4
  obtain ⟨w0, ew⟩ := key hd hw
  obtain ⟨v0, ev⟩ := key he hv
  refine ⟨w0, v0, ?_⟩
  have h1 := hs.trans (sine_le_unit hd he (cosE w v))
  rw [sine_eq_unit w0 v0]
  have h2 : ‖d‖⁻¹ • d - cosE w v • (‖e‖⁻¹ • e) = (‖w‖⁻¹ • w - cosE w v • (‖v‖⁻¹ • v)) - (‖w‖⁻¹ • w - ‖d‖⁻¹ • d) +
      cosE w v • (‖v‖⁻¹ • v - ‖e‖⁻¹ • e) := by
    rw [smul_sub]; abel
  have h3 : ‖cosE w v • (‖v‖⁻¹ • v - ‖e‖⁻¹ • e)‖ ≤ 2 * δ := by
    rw [norm_smul, Real.norm_eq_abs]
    have := abs_cosE_le_one w v
    have h0 := norm_nonneg (‖v‖⁻¹ • v - ‖e‖⁻¹ • e)
    nlinarith
  rw [h2] at h1
  have h4 := norm_add_le ((‖w‖⁻¹ • w - cosE w v • (‖v‖⁻¹ • v)) - (‖w‖⁻¹ • w - ‖d‖⁻¹ • d)) (cosE w v • (‖v‖⁻¹ • v - ‖e‖⁻¹ • e))
  have h5 := norm_sub_le (‖w‖⁻¹ • w - cosE w v • (‖v‖⁻¹ • v)) (‖w‖⁻¹ • w - ‖d‖⁻¹ • d)
  linarith

/-- The point of a perturbed line nearest to another perturbed line is near the common point of the unperturbed lines. -/
theorem nearest_perturbed {a c d e w v x z : E n} {s δ : ℝ} (hd : d ≠ 0) (he : e ≠ 0) (hs : s ≤ √(1 - cosE d e ^ 2)) (hs0 : 0 < s)
    (hδ0 : 0 ≤ δ) (hδ : 8 * δ ≤ s) (hw : ‖w - d‖ ≤ δ * ‖d‖) (hv : ‖v - e‖ ≤ δ * ‖e‖) (hxa : x ∈ lineSet a d) (hxc : x ∈ lineSet c e)
    (hz : z ∈ lineSet a w) (hn : ∀ z' ∈ lineSet a w, Metric.infDist z (lineSet c v) ≤ Metric.infDist z' (lineSet c v)) :
    dist z x ≤ 5 * δ / s * (dist x a + dist x c) := by
  obtain ⟨w0, v0, hσ⟩ := sine_perturb_space hd he hs hδ hδ0 hw hv
  obtain ⟨σ, hσe⟩ : ∃ σ, σ = √(1 - cosE w v ^ 2) := ⟨_, rfl⟩
  rw [← hσe] at hσ
  have hs1 : s ≤ 1 := by
    refine hs.trans (Real.sqrt_le_one.mpr ?_)
    have := sq_nonneg (cosE d e); linarith
  obtain ⟨τ, rfl⟩ := hxa
  obtain ⟨ρ, hρ⟩ := hxc
  obtain ⟨t, rfl⟩ := hz
  obtain ⟨D₁, hD₁⟩ : ∃ D, D = dist (a + τ • d) a := ⟨_, rfl⟩
  obtain ⟨D₂, hD₂⟩ : ∃ D, D = dist (a + τ • d) c := ⟨_, rfl⟩
  have e1 : ‖τ • w - τ • d‖ ≤ δ * D₁ := by
    rw [← smul_sub, norm_smul, hD₁, dist_eq_norm, add_sub_cancel_left, norm_smul, mul_left_comm]
    exact mul_le_mul_of_nonneg_left hw (norm_nonneg _)
  have e2 : ‖ρ • v - ρ • e‖ ≤ δ * D₂ := by
    rw [← smul_sub, norm_smul, hD₂, hρ, dist_eq_norm, add_sub_cancel_left, norm_smul, mul_left_comm]
    exact mul_le_mul_of_nonneg_left hv (norm_nonneg _)
  have e3 : ‖(a + τ • w) - (c + ρ • v)‖ ≤ δ * (D₁ + D₂) := by
    have : (a + τ • w) - (c + ρ • v) = (τ • w - τ • d) - (ρ • v - ρ • e) := by
      have : a + τ • d - (c + ρ • e) = 0 := by rw [← hρ, sub_self]
      rw [← sub_zero ((τ • w - τ • d) - (ρ • v - ρ • e)), ← neg_zero, ← this]
      abel
    rw [this]
    refine (norm_sub_le _ _).trans ?_
    linarith
  -- distances from the second line
  have hm : c + ρ • v ∈ lineSet c v := ⟨ρ, rfl⟩
  have hm' : a + τ • w ∈ lineSet a w := ⟨τ, rfl⟩
  have h1 : Metric.infDist (a + t • w) (lineSet c v) ≤ δ * (D₁ + D₂) := by
    refine (hn _ hm').trans ((Metric.infDist_le_dist_of_mem hm).trans ?_)
    rw [dist_eq_norm]; exact e3
  have h2 : |t - τ| * ‖w‖ * σ - δ * (D₁ + D₂) ≤ Metric.infDist (a + t • w) (lineSet c v) := by
    refine (Metric.le_infDist ⟨_, hm⟩).mpr ?_
    rintro y ⟨r, rfl⟩
    have h3 := sine_le w0 v0 (t - τ) (r - ρ)
    rw [← hσe] at h3
    have h4 : (t - τ) • w - (r - ρ) • v = (a + t • w - (c + r • v)) - ((a + τ • w) - (c + ρ • v)) := by
      rw [sub_smul, sub_smul]; abel
    rw [h4] at h3
    have h5 := norm_sub_le (a + t • w - (c + r • v)) ((a + τ • w) - (c + ρ • v))
    rw [dist_eq_norm]
    linarith
  have hD1 : 0 ≤ D₁ := by rw [hD₁]; exact dist_nonneg
  have hD2 : 0 ≤ D₂ := by rw [hD₂]; exact dist_nonneg
  have h6 : |t - τ| * ‖w‖ * s ≤ 4 * δ * (D₁ + D₂) := by
    have : |t - τ| * ‖w‖ * (s / 2) ≤ |t - τ| * ‖w‖ * σ := mul_le_mul_of_nonneg_left hσ (by positivity)
    linarith
  have h7 : dist (a + t • w) (a + τ • d) ≤ |t - τ| * ‖w‖ + δ * D₁ := by
    have : a + t • w - (a + τ • d) = (t - τ) • w + (τ • w - τ • d) := by rw [sub_smul]; abel
    rw [dist_eq_norm, this]
    refine (norm_add_le _ _).trans ?_
    rw [norm_smul, Real.norm_eq_abs]
    linarith
  rw [← hD₁, ← hD₂]
  refine h7.trans ?_
  rw [div_mul_eq_mul_div, le_div_iff₀ hs0]
  have h8 : δ * D₁ * s ≤ δ * (D₁ + D₂) := by
    calc δ * D₁ * s ≤ δ * D₁ * 1 := mul_le_mul_of_nonneg_left hs1 (by positivity)
      _ ≤ _ := by nlinarith
  linarith

set_option maxHeartbeats 1000000 in
/-- The computed intersection of two lines with perturbed directions `w`, `v`, compared with the common point `x` of the unperturbed lines. -/
theorem meet_space [NeZero n] (hn : n ≤ 3) (h : StdRounding u fl) (hu : u ≤ 1 / 10 ^ 11) [ext : NumpyExt ℝ] [hS : StableNumpy η]
    {a c d e w v x : E n} {s δ : ℝ} (hd : d ≠ 0) (he : e ≠ 0) (hs : s ≤ √(1 - cosE d e ^ 2)) (hs0 : 12 / 10 ^ 5 ≤ s) (hδ0 : 0 ≤ δ)
    (hδ : 8 * δ ≤ s) (hw : ‖w - d‖ ≤ δ * ‖d‖) (hv : ‖v - e‖ ≤ δ * ‖e‖) (hxa : x ∈ lineSet a d) (hxc : x ∈ lineSet c e) (check : Bool) :
    (∃ y, @Line.intersectLine ℝ (rounded fl) ext ⟨arr a, arr w⟩ ⟨arr c, arr v⟩ check (@Tol.default ℝ (rounded fl)) = .ok (arr y) ∧
      dist y x ≤ u * (2 * ‖a‖ + 520 * dist a c / s ^ 2) + 5 * δ / s * (dist x a + dist x c)) ∨
    (check = true ∧ n = 3 ∧ @Line.intersectLine ℝ (rounded fl) ext ⟨arr a, arr w⟩ ⟨arr c, arr v⟩ check (@Tol.default ℝ (rounded fl)) =
      .error (.valueError "The lines must be coplanar.")) := by
  have hu0 := h.nonneg
  have hsp : 0 < s := lt_of_lt_of_le (by norm_num) hs0
  have hu2 : u ≤ 1 / 2 := by norm_num at hu; linarith
  obtain ⟨hw0, hv0, hσs⟩ := sine_perturb_space hd he hs hδ hδ0 hw hv
  obtain ⟨σ, hσ⟩ : ∃ σ, σ = √(1 - cosE w v ^ 2) := ⟨_, rfl⟩
  rw [← hσ] at hσs
  have hσ0 : 0 < σ := by linarith
  have hcos : |cosE w v| < 1 - 15 / 10 ^ 10 := by
    have h1 : σ ^ 2 = 1 - |cosE w v| ^ 2 := by
      rw [hσ, sq_abs]
      refine Real.sq_sqrt ?_
      have := pow_le_one₀ (n := 2) (abs_nonneg _) (abs_cosE_le_one w v)
      rw [sq_abs] at this; linarith
    have h2 : (6 / 10 ^ 5) ^ 2 ≤ σ ^ 2 := pow_le_pow_left₀ (by norm_num) (by norm_num at hs0 ⊢; linarith) 2
    have h3 := abs_nonneg (cosE w v)
    norm_num at h2 ⊢
    nlinarith
  have LA := ((C73_constructors h hu2 a w).1 hw0).1
  have LB := ((C73_constructors h hu2 c v).1 hv0).1
  obtain ⟨b, hb1, hb2⟩ := isCoplanar_rd (η := η) h a w c v (tol := none) (by simp)
  by_cases hb : check = true ∧ b = false
  · right
    obtain ⟨hc, hbf⟩ := hb
    have hn3 : n = 3 := by
      by_contra hne
      have := hb2 (by omega)
      rw [hbf] at this
      cases this
    refine ⟨hc, hn3, ?_⟩
    have hp := not_parallel_rd hn h hu hw0 hv0 hcos
    rw [hbf] at hb1
    simp only [Line.intersectLine, Line.dimension, length_arr, hp, hb1, hc, ok_bind, pure_ok, ne_eq, not_true_eq_false, if_false, if_true,
      Bool.false_eq_true, Bool.not_false]
    rw [if_neg (by omega)]
  · left
    have hcop : check = true → @Line.isCoplanar ℝ (rounded fl) ext none ⟨arr a, arr w⟩ (.line ⟨arr c, arr v⟩) = .ok true := by
      intro hc
      rw [hb1]
      cases b
      · exact absurd ⟨hc, rfl⟩ hb
      · rfl
    obtain ⟨y, z, hy, hz1, hz2, hyz, -⟩ := C109_intersect_line hn h hu LA LB hcos check hcop
    refine ⟨y, hy, ?_⟩
    rw [← hσ] at hyz
    have hκ : σ⁻¹ ^ 2 ≤ 4 / s ^ 2 := by
      rw [inv_pow, inv_le_comm₀ (by positivity) (by positivity)]
      rw [inv_div, div_le_iff₀ (by norm_num)]
      nlinarith
    have h1 : dist y z ≤ u * (2 * ‖a‖ + 520 * dist a c / s ^ 2) := by
      refine hyz.trans (mul_le_mul_of_nonneg_left ?_ hu0)
      have e1 : 130 * σ⁻¹ ^ 2 * dist a c ≤ 130 * (4 / s ^ 2) * dist a c :=
        mul_le_mul_of_nonneg_right (mul_le_mul_of_nonneg_left hκ (by norm_num)) dist_nonneg
      have e2 : 130 * (4 / s ^ 2) * dist a c = 520 * dist a c / s ^ 2 := by ring
      linarith
    have h3 := nearest_perturbed hd he hs hsp hδ0 hδ hw hv hxa hxc hz1 hz2
    exact (dist_triangle y z x).trans (add_le_add h1 h3)

/-- **C126** `segment.intersect_line_segment(other)` under rounding, in the plane and in space.  Let `x` be the common point of the lines through
the end points `a`, `b` and `c`, `d`, `s` the sine of their angle, `s ≥ 1.2e-4`, and `e = u (2 ‖a‖ + 525 (|xa| + |xc|) / s²)`.  The method
returns a point within `e` of `x` that is within `1.3e-5` segment lengths of both segments, or raises "The line segments must
intersect.", or, in space and if coplanarity is checked, raises "The lines must be coplanar."; it does not raise the former if
`x` is on both segments and further than `e / 9e-6` from the four end points. -/
theorem C126_intersect_line_segment (hn : n ≤ 3) (h : StdRounding u fl) (hu : u ≤ 1 / 10 ^ 12) [ext : NumpyExt ℝ] [hN : StableNumpy η]
    {a b c d x : E n} {S T : LineSegment ℝ} (hS : @LineSegment.new ℝ (rounded fl) (arr a) (arr b) = .ok S)
    (hT : @LineSegment.new ℝ (rounded fl) (arr c) (arr d) = .ok T) {s : ℝ} (hs : s ≤ √(1 - cosE (b - a) (d - c) ^ 2))
    (hs0 : 12 / 10 ^ 5 ≤ s) (hxa : x ∈ lineSet a (b - a)) (hxc : x ∈ lineSet c (d - c)) {e : ℝ}
    (he : e = u * (2 * ‖a‖ + 525 * (dist x a + dist x c) / s ^ 2)) (check : Bool) :
    ((∃ y, @LineSegment.intersectLineSegment ℝ (rounded fl) ext S T check (@Tol.default ℝ (rounded fl)) = .ok (arr y) ∧ dist y x ≤ e ∧
        (∃ z ∈ segment ℝ a b, dist y z ≤ 13 / 1000000 * dist a b) ∧ ∃ z ∈ segment ℝ c d, dist y z ≤ 13 / 1000000 * dist c d) ∨
      (@LineSegment.intersectLineSegment ℝ (rounded fl) ext S T check (@Tol.default ℝ (rounded fl)) =
          .error (.valueError "The line segments must intersect.") ∧
        ¬ (x ∈ segment ℝ a b ∧ x ∈ segment ℝ c d ∧ ∀ z ∈ [a, b, c, d], x ≠ z ∧ e ≤ 9 / 1000000 * dist x z)) ∨
      (check = true ∧ n = 3 ∧ @LineSegment.intersectLineSegment ℝ (rounded fl) ext S T check (@Tol.default ℝ (rounded fl)) =
        .error (.valueError "The lines must be coplanar."))) := by
  have hu0 := h.nonneg
  have hsp : 0 < s := lt_of_lt_of_le (by norm_num) hs0
  have hu2 : u ≤ 1 / 2 := by norm_num at hu; linarith
  have hn3 : (n : ℝ) ≤ 3 := by exact_mod_cast hn
  have hu7 : ((n : ℕ) + 7) * u ≤ 9 / 100000000000 := by norm_num at hu ⊢; nlinarith
  obtain ⟨hnz, hab, hSe⟩ := segment_new_rd h (by norm_num at hu ⊢; linarith) hS
  obtain ⟨-, hcd, hTe⟩ := segment_new_rd h (by norm_num at hu ⊢; linarith) hT
  have hd : b - a ≠ 0 := sub_ne_zero.mpr hab.symm
  have he' : d - c ≠ 0 := sub_ne_zero.mpr hcd.symm
  have hs1 : s ≤ 1 := by
    refine hs.trans (Real.sqrt_le_one.mpr ?_)
    have := sq_nonneg (cosE (b - a) (d - c)); linarith
  obtain ⟨w, hw, cw⟩ := (C114_line_from_points h hu2 a b).2 hab
  obtain ⟨v, hv, cv⟩ := (C114_line_from_points h hu2 c d).2 hcd
  have crd : ∀ {f g : E n}, (∀ i, f i = fl (g i) ∧ |f i - g i| ≤ u * |g i|) → ‖f - g‖ ≤ u * ‖g‖ := by
    intro f g hfg
    refine le_of_sq_le_sq ?_ (by positivity)
    rw [mul_pow, EuclideanSpace.norm_sq_eq, EuclideanSpace.norm_sq_eq, Finset.mul_sum]
    refine Finset.sum_le_sum fun i _ => ?_
    rw [Real.norm_eq_abs, Real.norm_eq_abs, ← mul_pow]
    exact pow_le_pow_left₀ (abs_nonneg _) (hfg i).2 2
  have hw' : ‖w - (b - a)‖ ≤ u * ‖b - a‖ := crd cw
  have hv' : ‖v - (d - c)‖ ≤ u * ‖d - c‖ := crd cv
  rcases meet_space (η := η) hn h (by norm_num at hu ⊢; linarith) hd he' hs hs0 hu0 (by norm_num at hu hs0; linarith) hw' hv' hxa hxc check with
    ⟨y, hy, hyx⟩ | ⟨k1, k2, k3⟩
  swap
  · right; right
    refine ⟨k1, k2, ?_⟩
    rw [hSe, hTe]
    simp only [LineSegment.intersectLineSegment, hw, hv, ok_bind, k3, error_bind]
  have hye : dist y x ≤ e := by
    refine hyx.trans ?_
    obtain ⟨D, hD⟩ : ∃ D, D = dist x a + dist x c := ⟨_, rfl⟩
    have hD0 : 0 ≤ D := by rw [hD]; positivity
    have h1 : dist a c ≤ D := by rw [hD, dist_comm x a]; exact dist_triangle _ _ _
    rw [he, ← hD]
    have h2 : 520 * dist a c / s ^ 2 ≤ 520 * D / s ^ 2 := by gcongr
    have h3 : 5 * u / s * D ≤ u * (5 * D / s ^ 2) := by
      rw [div_mul_eq_mul_div, mul_div_assoc', div_le_div_iff₀ hsp (by positivity)]
      have : s ^ 2 ≤ s := by nlinarith
      have h4 : 0 ≤ 5 * u * D := by positivity
      nlinarith [mul_le_mul_of_nonneg_left this h4]
    have h5 := mul_le_mul_of_nonneg_left h2 hu0
    have h6 : 525 * D / s ^ 2 = 520 * D / s ^ 2 + 5 * D / s ^ 2 := by ring
    rw [h6]
    linarith
  obtain ⟨r1, hr1, -, n1⟩ := C81_contains_point h hu7 hS y
  obtain ⟨r2, hr2, -, n2⟩ := C81_contains_point h hu7 hT y
  obtain ⟨r1', hr1', p1, -⟩ := containsPoint_rd h hu7 a b y
  obtain ⟨r2', hr2', p2, -⟩ := containsPoint_rd h hu7 c d y
  rw [hSe] at hr1 ⊢
  rw [hTe] at hr2 ⊢
  rw [hr1, Except.ok.injEq] at hr1'
  rw [hr2, Except.ok.injEq] at hr2'
  subst hr1'
  subst hr2'
  have comp : @LineSegment.intersectLineSegment ℝ (rounded fl) ext ⟨arr a, arr b⟩ ⟨arr c, arr d⟩ check (@Tol.default ℝ (rounded fl)) =
      if !(r1 && r2) then .error (.valueError "The line segments must intersect.") else .ok (arr y) := by
    simp only [LineSegment.intersectLineSegment, hw, hv, ok_bind, hy, hr1, hr2, pure_ok]
  rw [comp]
  by_cases hr : r1 = true ∧ r2 = true
  · left
    exact ⟨y, by simp [hr.1, hr.2], hye, n1 hr.1, n2 hr.2⟩
  · right; left
    refine ⟨?_, ?_⟩
    · rw [if_pos]
      cases r1 <;> cases r2 <;> simp_all
    · rintro ⟨hx1, hx2, hz⟩
      have inner : ∀ {p q : E n}, x ∈ segment ℝ p q → (x ≠ p ∧ e ≤ 9 / 1000000 * dist x p) → (x ≠ q ∧ e ≤ 9 / 1000000 * dist x q) →
          cosE (p - y) (q - y) ≤ -1 + 7 / 10000000000 := by
        intro p q hx hp hq
        have := cos_near_inner hx hp.1 hq.1 (ε := 9 / 1000000) (by norm_num) (hye.trans hp.2) (hye.trans hq.2)
        refine this.trans ?_
        norm_num
      have c1 := p1 (.inr (.inr (inner hx1 (hz a (by simp)) (hz b (by simp)))))
      have c2 := p2 (.inr (.inr (inner hx2 (hz c (by simp)) (hz d (by simp)))))
      exact hr ⟨c1, c2⟩

/-! ### Orthocenters -/

theorem sq_cosE (x y : E n) : cosE x y ^ 2 = (inner ℝ x y : ℝ) ^ 2 / (‖x‖ ^ 2 * ‖y‖ ^ 2) := by
  rw [cosE, div_pow, mul_pow]

/-- Two altitudes of a triangle make the same angle as the sides they are perpendicular to. -/
theorem cos_altitudes {a b c : E n} (hbc : b ≠ c) (hca : c ≠ a) (hs : cosE (a - c) (b - c) ^ 2 < 1) :
    foot b (c - b) a - a ≠ 0 ∧ foot c (a - c) b - b ≠ 0 ∧
      cosE (foot b (c - b) a - a) (foot c (a - c) b - b) ^ 2 = cosE (a - c) (b - c) ^ 2 := by
  obtain ⟨A, hA⟩ : ∃ A, A = c - b := ⟨_, rfl⟩
  obtain ⟨B, hB⟩ : ∃ B, B = a - c := ⟨_, rfl⟩
  have nA : A ≠ 0 := by rw [hA]; exact sub_ne_zero.mpr hbc.symm
  have nB : B ≠ 0 := by rw [hB]; exact sub_ne_zero.mpr hca.symm
  obtain ⟨p, hp⟩ : ∃ p : ℝ, p = inner ℝ A B := ⟨_, rfl⟩
  obtain ⟨α, hα⟩ : ∃ α : ℝ, α = ‖A‖ ^ 2 := ⟨_, rfl⟩
  obtain ⟨β, hβ⟩ : ∃ β : ℝ, β = ‖B‖ ^ 2 := ⟨_, rfl⟩
  have α0 : 0 < α := by rw [hα]; have := norm_pos_iff.mpr nA; positivity
  have β0 : 0 < β := by rw [hβ]; have := norm_pos_iff.mpr nB; positivity
  have ab : a - b = A + B := by rw [hA, hB]; abel
  have bc : b - c = -A := by rw [hA]; abel
  have hAA : (inner ℝ A A : ℝ) = α := by rw [real_inner_self_eq_norm_sq, hα]
  have hBB : (inner ℝ B B : ℝ) = β := by rw [real_inner_self_eq_norm_sq, hβ]
  have eA : foot b (c - b) a - a = (p / α) • A - B := by
    have h1 : (inner ℝ (a - b) A / ‖A‖ ^ 2 : ℝ) = 1 + p / α := by
      rw [ab, inner_add_left, real_inner_comm, hAA, real_inner_comm, ← hp, ← hα]
      field_simp
    rw [foot, ← hA, h1, hA, hB]
    module
  have eB : foot c (a - c) b - b = A - (p / β) • B := by
    have h1 : (inner ℝ (b - c) B / ‖B‖ ^ 2 : ℝ) = - (p / β) := by
      rw [bc, inner_neg_left, ← hp, ← hβ, neg_div]
    rw [foot, ← hB, h1, hA, hB]
    module
  have hc : cosE (a - c) (b - c) ^ 2 = p ^ 2 / (α * β) := by
    rw [sq_cosE, bc, ← hB, inner_neg_right, real_inner_comm, ← hp, norm_neg, ← hα, ← hβ, neg_sq, mul_comm β]
  rw [hc] at hs ⊢
  have hs' : p ^ 2 < α * β := by rwa [div_lt_one (by positivity)] at hs
  have n1 : ‖(p / α) • A - B‖ ^ 2 = (α * β - p ^ 2) / α := by
    rw [norm_sub_sq_real, norm_smul, mul_pow, Real.norm_eq_abs, sq_abs, real_inner_smul_left, ← hp, ← hα, ← hβ]
    field_simp; ring
  have n2 : ‖A - (p / β) • B‖ ^ 2 = (α * β - p ^ 2) / β := by
    rw [norm_sub_sq_real, norm_smul, mul_pow, Real.norm_eq_abs, sq_abs, real_inner_smul_right, ← hp, ← hα, ← hβ]
    field_simp; ring
  have hpos : 0 < α * β - p ^ 2 := by linarith
  rw [eA, eB]
  refine ⟨?_, ?_, ?_⟩
  · intro h0; rw [h0, norm_zero] at n1
    have : 0 < (α * β - p ^ 2) / α := by positivity
    rw [← n1] at this; norm_num at this
  · intro h0; rw [h0, norm_zero] at n2
    have : 0 < (α * β - p ^ 2) / β := by positivity
    rw [← n2] at this; norm_num at this
  · have hi : (inner ℝ ((p / α) • A - B) (A - (p / β) • B) : ℝ) = p * (α * β - p ^ 2) / (α * β) := by
      simp only [inner_sub_left, inner_sub_right, real_inner_smul_left, real_inner_smul_right, hAA, hBB, real_inner_comm A B, ← hp]
      field_simp; ring
    rw [sq_cosE, n1, n2, hi]
    field_simp

theorem ortho_const_space (hn : n ≤ 3) (h : StdRounding u fl) (hu : u ≤ 1 / 10 ^ 11) :
    (1 - u)⁻¹ - 1 ≤ 4 * u ∧ ((1 - u) ^ (2 * n + 10))⁻¹ - 1 ≤ 34 * u ∧ ((1 - u) ^ 2)⁻¹ - 1 ≤ 4 * u ∧
      ((1 - u) ^ (2 * n + 11))⁻¹ - 1 ≤ 34 * u := by
  have hu0 := h.nonneg
  have key : ∀ k : ℕ, 1 ≤ k → k ≤ 17 → ((1 - u) ^ k)⁻¹ - 1 ≤ 2 * k * u := by
    intro k hk hk'
    have hk1 : (1 : ℝ) ≤ k := by exact_mod_cast hk
    have hk2 : (k : ℝ) ≤ 17 := by exact_mod_cast hk'
    have := exp_eps_le2 h hk1 (by norm_num at hu; nlinarith)
    rw [h.exp_eps, Real.rpow_natCast] at this
    exact this
  have big : ∀ k : ℕ, 1 ≤ k → k ≤ 17 → ((1 - u) ^ k)⁻¹ - 1 ≤ 34 * u := by
    intro k hk hk'
    have hk2 : (k : ℝ) ≤ 17 := by exact_mod_cast hk'
    refine (key k hk hk').trans (mul_le_mul_of_nonneg_right (by linarith) hu0)
  have k1 := key 1 (by norm_num) (by norm_num)
  have k2 := key 2 (by norm_num) (by norm_num)
  norm_num at k1 k2
  exact ⟨by linarith, big _ (by omega) (by omega), by linarith, big _ (by omega) (by omega)⟩

set_option maxHeartbeats 2000000 in
/-- **C126** `triangle.orthocenter()` under rounding, in the plane and in space.  Let `H` be the orthocenter (the point of the plane of the
triangle seen from `a` and `b` perpendicular to the opposite sides), `s ≥ 1.2e-4` a bound of the sine of the angle at `C`, and `δ ≤ s/8` a
bound of the relative error of the two altitudes: `u (4|b| + 34|ab|)` and `u (4|c| + 34|bc|)` relative to the heights from `A` and `B`.  The
method returns a point within `u (2|a| + 520 |ab| / s²) + 5 (δ/s) (|Ha| + |Hb|)` of `H`, or, in space and if coplanarity is checked, raises
"The lines must be coplanar." -/
theorem C126_orthocenter [NeZero n] (hn : n ≤ 3) (h : StdRounding u fl) (hu : u ≤ 1 / 10 ^ 11) [ext : NumpyExt ℝ] [hN : StableNumpy η]
    {a b c : E n} {T : Triangle ℝ} (hT : @Triangle.new ℝ (rounded fl) ext (arr a) (arr b) (arr c) = .ok T)
    (hab : a ≠ b) (hbc : b ≠ c) (hca : c ≠ a) {s δ : ℝ} {H : E n}
    (hs : s ≤ √(1 - cosE (a - c) (b - c) ^ 2)) (hs0 : 12 / 10 ^ 5 ≤ s) (hδ : 8 * δ ≤ s)
    (hA : u * (4 * ‖b‖ + 34 * dist a b) ≤ δ * Metric.infDist a (lineSet b (c - b)))
    (hB : u * (4 * ‖c‖ + 34 * dist b c) ≤ δ * Metric.infDist b (lineSet c (a - c)))
    (hH : InPlaneOf a b c H) (hHa : inner ℝ (H - a) (c - b) = (0 : ℝ)) (hHb : inner ℝ (H - b) (a - c) = (0 : ℝ)) (check : Bool) :
    (∃ y, @Triangle.orthocenter ℝ (rounded fl) ext T check (@Tol.default ℝ (rounded fl)) = .ok (arr y) ∧
      dist y H ≤ u * (2 * ‖a‖ + 520 * dist a b / s ^ 2) + 5 * δ / s * (dist H a + dist H b)) ∨
    (check = true ∧ n = 3 ∧ @Triangle.orthocenter ℝ (rounded fl) ext T check (@Tol.default ℝ (rounded fl)) =
      .error (.valueError "The lines must be coplanar.")) := by
  have hu0 := h.nonneg
  have hsp : 0 < s := lt_of_lt_of_le (by norm_num) hs0
  have hu2 : u ≤ 1 / 2 := by norm_num at hu; linarith
  have cA : c - b ≠ 0 := sub_ne_zero.mpr hbc.symm
  have cB : a - c ≠ 0 := sub_ne_zero.mpr hca.symm
  obtain ⟨k1, k14, k2, k15⟩ := ortho_const_space hn h hu
  have hcos1 : cosE (a - c) (b - c) ^ 2 < 1 := by
    by_contra hc
    rw [Real.sqrt_eq_zero_of_nonpos (by linarith [not_lt.mp hc])] at hs
    linarith
  have hs1 : s ≤ 1 := by
    refine hs.trans (Real.sqrt_le_one.mpr ?_)
    have := sq_nonneg (cosE (a - c) (b - c)); linarith
  obtain ⟨nA, nB, hcos⟩ := cos_altitudes hbc hca hcos1
  have fA : footE b (c - b) a = foot b (c - b) a := by rw [footE, foot, real_inner_comm]
  have fB : footE c (a - c) b = foot c (a - c) b := by rw [footE, foot, real_inner_comm]
  have ncol : ¬ Collinear ℝ ({a, b, c} : Set (E n)) := by
    intro hcol
    rw [collinear_iff_of_mem (p₀ := c) (by simp)] at hcol
    obtain ⟨d, hd⟩ := hcol
    obtain ⟨r, hr⟩ := hd a (by simp)
    obtain ⟨t, ht⟩ := hd b (by simp)
    rw [vadd_eq_add] at hr ht
    have ea : a - c = r • d := by rw [hr]; abel
    have eb : b - c = t • d := by rw [ht]; abel
    have hd0 : d ≠ 0 := by rintro rfl; exact cB (by rw [ea, smul_zero])
    have hr0 : r ≠ 0 := by rintro rfl; exact cB (by rw [ea, zero_smul])
    have ht0 : t ≠ 0 := by rintro rfl; exact (sub_ne_zero.mpr hbc) (by rw [eb, zero_smul])
    have hdn := norm_pos_iff.mpr hd0
    rw [sq_cosE, ea, eb, real_inner_smul_left, real_inner_smul_right, real_inner_self_eq_norm_sq, norm_smul, norm_smul, mul_pow ‖r‖, mul_pow ‖t‖,
      Real.norm_eq_abs, Real.norm_eq_abs, sq_abs, sq_abs] at hcos1
    have : (r * (t * ‖d‖ ^ 2)) ^ 2 / (r ^ 2 * ‖d‖ ^ 2 * (t ^ 2 * ‖d‖ ^ 2)) = 1 := by field_simp
    linarith
  have mA : H ∈ lineSet a (foot b (c - b) a - a) := by
    rw [← fA]; exact (altitude_set ncol H).mpr ⟨hH, hHa⟩
  have mB : H ∈ lineSet b (foot c (a - c) b - b) := by
    rw [← fB]
    exact (altitude_set (by rwa [collinear_perm1]) H).mpr ⟨InPlaneOf.perm1.mpr hH, hHb⟩
  rw [← hcos] at hs
  have eA : Metric.infDist a (lineSet b (c - b)) = ‖foot b (c - b) a - a‖ := by
    rw [infDist_lineSet b cA, ← fA, dist_comm, dist_eq_norm]
  have eB : Metric.infDist b (lineSet c (a - c)) = ‖foot c (a - c) b - b‖ := by
    rw [infDist_lineSet c cB, ← fB, dist_comm, dist_eq_norm]
  rw [eA] at hA
  rw [eB] at hB
  obtain ⟨aA, aB, -⟩ := C115_altitude h hu2 hT hab hbc hca
  have hA0 : 0 < ‖foot b (c - b) a - a‖ := norm_pos_iff.mpr nA
  have hB0 : 0 < ‖foot c (a - c) b - b‖ := norm_pos_iff.mpr nB
  have hδ0 : 0 ≤ δ := by
    by_contra hc
    have : δ * ‖foot b (c - b) a - a‖ < 0 := mul_neg_of_neg_of_pos (not_le.mp hc) hA0
    have h2 : 0 ≤ u * (4 * ‖b‖ + 34 * dist a b) := by positivity
    linarith
  have hδ1 : δ ≤ 1 / 8 := by linarith
  have bd : ∀ x y : ℝ, 0 ≤ x → 0 ≤ y → ((1 - u)⁻¹ - 1) * x + (((1 - u) ^ (2 * n + 10))⁻¹ - 1) * y ≤ u * (4 * x + 34 * y) := by
    intro x y hx hy
    have e1 := mul_le_mul_of_nonneg_right k1 hx
    have e2 := mul_le_mul_of_nonneg_right k14 hy
    linarith
  have bd' : ∀ x y : ℝ, 0 ≤ x → 0 ≤ y → (((1 - u) ^ 2)⁻¹ - 1) * x + (((1 - u) ^ (2 * n + 11))⁻¹ - 1) * y ≤ u * (4 * x + 34 * y) := by
    intro x y hx hy
    have e1 := mul_le_mul_of_nonneg_right k2 hx
    have e2 := mul_le_mul_of_nonneg_right k15 hy
    linarith
  have small : ∀ {x : ℝ}, 0 < x → δ * x < x := fun hx => by nlinarith
  obtain ⟨w, hw, -, ew⟩ := aA (by
    rw [dist_comm a (foot b (c - b) a), dist_eq_norm (foot b (c - b) a)]
    exact lt_of_le_of_lt ((bd _ _ (norm_nonneg _) dist_nonneg).trans hA) (small hA0))
  obtain ⟨v, hv, -, ev⟩ := aB (by
    rw [dist_comm b (foot c (a - c) b), dist_eq_norm (foot c (a - c) b)]
    exact lt_of_le_of_lt ((bd _ _ (norm_nonneg _) dist_nonneg).trans hB) (small hB0))
  have ew' := ew.trans ((bd' _ _ (norm_nonneg _) dist_nonneg).trans hA)
  have ev' := ev.trans ((bd' _ _ (norm_nonneg _) dist_nonneg).trans hB)
  obtain rfl := triangle_new_rd hT
  have comp : @Triangle.orthocenter ℝ (rounded fl) ext ⟨arr a, arr b, arr c⟩ check (@Tol.default ℝ (rounded fl)) =
      @Line.intersectLine ℝ (rounded fl) ext ⟨arr a, arr w⟩ ⟨arr b, arr v⟩ check (@Tol.default ℝ (rounded fl)) := by
    simp only [Triangle.orthocenter, hw, hv, ok_bind]
  rw [comp]
  exact meet_space (η := η) hn h hu nA nB hs hs0 hδ0 hδ ew' ev' mA mB check

/-! ### The hypotheses are met -/

private theorem nrm3 {x : E 3} {r : ℝ} (hr : 0 ≤ r) (hx : x 0 ^ 2 + x 1 ^ 2 + x 2 ^ 2 = r ^ 2) : ‖x‖ = r := by
  rw [← Real.sqrt_sq (norm_nonneg x), norm_sq3, hx, Real.sqrt_sq hr]

/-- In binary64 the segments from `(-1, 0, 0)` to `(1, 0, 0)` and from `(0, -1, 0)` to `(0, 1, 0)` are found to meet within `2 · 10⁻¹³` of
the origin. -/
theorem cross_segments_space (ext : NumpyExt ℝ) (hl : @LawfulNumpy ext) : ∃ S T y,
    @LineSegment.new ℝ (rounded (leftToRight (roundNearest 53))) (arr (vec3 (-1) 0 0)) (arr (vec3 1 0 0)) = .ok S ∧
    @LineSegment.new ℝ (rounded (leftToRight (roundNearest 53))) (arr (vec3 0 (-1) 0)) (arr (vec3 0 1 0)) = .ok T ∧
    @LineSegment.intersectLineSegment ℝ (rounded (leftToRight (roundNearest 53))) ext S T false
      (@Tol.default ℝ (rounded (leftToRight (roundNearest 53)))) = .ok (arr y) ∧ dist y (vec3 0 0 0) ≤ 2 / 10 ^ 13 := by
  have := @StableNumpy.of_lawful ext hl
  have hs := std53
  have hS := (C81_constructor hs (by norm_num) (vec3 (-1) 0 0) (vec3 1 0 0)).2 0 (by norm_num [vec3])
  have hT := (C81_constructor hs (by norm_num) (vec3 0 (-1) 0) (vec3 0 1 0)).2 1 (by norm_num [vec3])
  have hc : cosE (vec3 1 0 0 - vec3 (-1) 0 0) (vec3 0 1 0 - vec3 0 (-1) 0) = 0 := by
    rw [cosE, inner3]; simp only [vec3, PiLp.sub_apply, PiLp.toLp_apply, Matrix.cons_val]; norm_num
  have e0 : ∀ p q : E 3, p 0 + q 0 = 0 → p 1 + q 1 = 0 → p 2 + q 2 = 0 → vec3 0 0 0 ∈ lineSet p (q - p) := by
    intro p q h0 h1 h2
    refine ⟨1 / 2, ?_⟩
    ext i; fin_cases i <;> simp [vec3] <;> linarith
  have sg : ∀ p q : E 3, p 0 + q 0 = 0 → p 1 + q 1 = 0 → p 2 + q 2 = 0 → vec3 0 0 0 ∈ segment ℝ p q := by
    intro p q h0 h1 h2
    refine ⟨1 / 2, 1 / 2, by norm_num, by norm_num, by norm_num, ?_⟩
    ext i; fin_cases i <;> simp [vec3] <;> linarith
  have o1 : dist (vec3 0 0 0) (vec3 (-1) 0 0) = 1 := by
    rw [dist_eq_norm]; exact nrm3 (by norm_num) (by simp only [vec3, PiLp.sub_apply, PiLp.toLp_apply, Matrix.cons_val]; norm_num)
  have o2 : dist (vec3 0 0 0) (vec3 1 0 0) = 1 := by
    rw [dist_eq_norm]; exact nrm3 (by norm_num) (by simp only [vec3, PiLp.sub_apply, PiLp.toLp_apply, Matrix.cons_val]; norm_num)
  have o3 : dist (vec3 0 0 0) (vec3 0 (-1) 0) = 1 := by
    rw [dist_eq_norm]; exact nrm3 (by norm_num) (by simp only [vec3, PiLp.sub_apply, PiLp.toLp_apply, Matrix.cons_val]; norm_num)
  have o4 : dist (vec3 0 0 0) (vec3 0 1 0) = 1 := by
    rw [dist_eq_norm]; exact nrm3 (by norm_num) (by simp only [vec3, PiLp.sub_apply, PiLp.toLp_apply, Matrix.cons_val]; norm_num)
  have n1 : ‖vec3 (-1) 0 0‖ = 1 := nrm3 (by norm_num) (by simp only [vec3, PiLp.toLp_apply, Matrix.cons_val]; norm_num)
  have z0 : vec3 0 0 0 ∈ lineSet (vec3 (-1) 0 0) (vec3 1 0 0 - vec3 (-1) 0 0) := e0 _ _ (by simp [vec3]) (by simp [vec3]) (by simp [vec3])
  have z1 : vec3 0 0 0 ∈ lineSet (vec3 0 (-1) 0) (vec3 0 1 0 - vec3 0 (-1) 0) := e0 _ _ (by simp [vec3]) (by simp [vec3]) (by simp [vec3])
  have ne : ∀ {p q : E 3}, dist p q = 1 → p ≠ q := by rintro p _ h1 rfl; rw [dist_self] at h1; norm_num at h1
  rcases C126_intersect_line_segment (η := 0) le_rfl hs (by norm_num) hS hT (s := 1) (by rw [hc]; norm_num) (by norm_num) z0 z1 rfl false with
    ⟨y, hy, hd, -⟩ | ⟨-, hn⟩ | ⟨hn, -⟩
  · refine ⟨_, _, y, hS, hT, hy, hd.trans ?_⟩
    rw [o1, o3, n1]; norm_num
  · exfalso
    refine hn ⟨sg _ _ (by simp [vec3]) (by simp [vec3]) (by simp [vec3]), sg _ _ (by simp [vec3]) (by simp [vec3]) (by simp [vec3]), ?_⟩
    intro z hz
    simp only [List.mem_cons, List.not_mem_nil, or_false] at hz
    rw [o1, o3, n1]
    rcases hz with rfl | rfl | rfl | rfl
    · exact ⟨ne o1, by rw [o1]; norm_num⟩
    · exact ⟨ne o2, by rw [o2]; norm_num⟩
    · exact ⟨ne o3, by rw [o3]; norm_num⟩
    · exact ⟨ne o4, by rw [o4]; norm_num⟩
  · cases hn

open Classical in
private theorem noise_345_space : triangleNoise ((2 : ℝ)⁻¹ ^ 53) 0 (vec3 0 0 0) (vec3 4 0 0) (vec3 0 3 0) ≤ 1 / 10 ^ 11 := by
  have h1 : vec3 0 0 0 ≠ vec3 4 0 0 := fun e => by have := congrArg (fun x : E 3 => x 0) e; simp [vec3] at this
  have h2 : vec3 0 0 0 ≠ vec3 0 3 0 := fun e => by have := congrArg (fun x : E 3 => x 1) e; simp [vec3] at this
  have h3 : vec3 4 0 0 ≠ vec3 0 3 0 := fun e => by have := congrArg (fun x : E 3 => x 1) e; simp [vec3] at this
  have hM : momentNorm ({vec3 0 0 0, vec3 4 0 0, vec3 0 3 0} : Finset (E 3)) = 5 := by
    have : (∑ q ∈ ({vec3 0 0 0, vec3 4 0 0, vec3 0 3 0} : Finset (E 3)), ‖q‖ ^ 2) = 5 ^ 2 := by
      rw [Finset.sum_insert (by simp [h1, h2]), Finset.sum_insert (by simp [h3]), Finset.sum_singleton]
      simp only [norm_sq3, vec3, PiLp.toLp_apply, Matrix.cons_val]
      norm_num
    rw [momentNorm, this]
    exact Real.sqrt_sq (by norm_num)
  have hcard : ({vec3 0 0 0, vec3 4 0 0, vec3 0 3 0} : Finset (E 3)).card = 3 := by
    rw [Finset.card_eq_three]; exact ⟨_, _, _, h1, h2, h3, rfl⟩
  have he : rankNoise ((2 : ℝ)⁻¹ ^ 53) 0 ({vec3 0 0 0, vec3 4 0 0, vec3 0 3 0} : Finset (E 3)) ≤ 1 / 10 ^ 12 := by
    rw [rankNoise, hcard, hM]
    norm_num
  rw [triangleNoise, hM]
  have : (1 + (0 : ℝ)) * (5 + rankNoise ((2 : ℝ)⁻¹ ^ 53) 0 ({vec3 0 0 0, vec3 4 0 0, vec3 0 3 0} : Finset (E 3))) * (max 3 3 : ℕ) * (2 : ℝ)⁻¹ ^ 52 ≤
      (1 + (0 : ℝ)) * (5 + 1) * (max 3 3 : ℕ) * (2 : ℝ)⁻¹ ^ 52 := by
    refine mul_le_mul_of_nonneg_right (mul_le_mul_of_nonneg_right (mul_le_mul_of_nonneg_left ?_ (by norm_num)) (by positivity)) (by positivity)
    norm_num at he ⊢
    linarith
  norm_num at this he ⊢
  linarith

private theorem far_345_space (l : ℝ) : (1 : ℝ) < dist (vec3 0 0 0) (AffineMap.lineMap (vec3 4 0 0) (vec3 0 3 0) l) ∧
    (1 : ℝ) < dist (vec3 4 0 0) (AffineMap.lineMap (vec3 0 3 0) (vec3 0 0 0) l) ∧
    (1 : ℝ) < dist (vec3 0 3 0) (AffineMap.lineMap (vec3 0 0 0) (vec3 4 0 0) l) := by
  have key : ∀ x : E 3, 1 < x 0 ^ 2 + x 1 ^ 2 + x 2 ^ 2 → 1 < ‖x‖ := by
    intro x hx
    rw [← norm_sq3] at hx
    by_contra hc
    have := pow_le_one₀ (n := 2) (norm_nonneg x) (not_lt.mp hc)
    linarith
  simp only [dist_eq_norm]
  refine ⟨key _ ?_, key _ ?_, key _ ?_⟩ <;>
    simp only [AffineMap.lineMap_apply_module, PiLp.sub_apply, PiLp.add_apply, PiLp.smul_apply, vec3, PiLp.toLp_apply,
      Matrix.cons_val, smul_eq_mul] <;> nlinarith [sq_nonneg (l - 16 / 25), sq_nonneg l, sq_nonneg (1 - l)]

/-- In binary64 the orthocenter of the right triangle `(0, 0, 0)`, `(4, 0, 0)`, `(0, 3, 0)` in space is found within `2 · 10⁻¹²` of the right
angle. -/
example (ext : NumpyExt ℝ) (hl : @LawfulNumpy ext) : ∃ T y,
    @Triangle.new ℝ (rounded (leftToRight (roundNearest 53))) ext (arr (vec3 0 0 0)) (arr (vec3 4 0 0)) (arr (vec3 0 3 0)) = .ok T ∧
    @Triangle.orthocenter ℝ (rounded (leftToRight (roundNearest 53))) ext T false (@Tol.default ℝ (rounded (leftToRight (roundNearest 53)))) =
      .ok (arr y) ∧ dist y (vec3 0 0 0) ≤ 2 / 10 ^ 12 := by
  have := @StableNumpy.of_lawful ext hl
  have hs : StdRounding ((2 : ℝ)⁻¹ ^ 53) (leftToRight (roundNearest 53)) := by
    have := std53
    rwa [show (2 : ℝ) ^ (-(53 : ℕ) : ℤ) = (2 : ℝ)⁻¹ ^ 53 by norm_num] at this
  have hlt := lt_of_le_of_lt noise_345_space (show (1 / 10 ^ 11 : ℝ) < 1 by norm_num)
  have hT := C105_triangle (η := 0) hs (fun l => hlt.trans (far_345_space l).1) (fun l => hlt.trans (far_345_space l).2.1)
    (fun l => hlt.trans (far_345_space l).2.2)
  have far : ∀ p q r : E 3, (∀ l : ℝ, (1 : ℝ) < dist p (AffineMap.lineMap q r l)) → 1 ≤ Metric.infDist p (lineSet q (r - q)) := by
    intro p q r hd
    have hne : (lineSet q (r - q)).Nonempty := ⟨q, 0, by simp⟩
    refine (Metric.le_infDist hne).mpr ?_
    rintro _ ⟨t, rfl⟩
    have := hd t
    rw [AffineMap.lineMap_apply_module', add_comm] at this
    exact this.le
  have f1 := far _ _ _ fun l => (far_345_space l).1
  have f2 := far _ _ _ fun l => (far_345_space l).2.1
  have n0 : ‖vec3 0 0 0‖ = 0 := nrm3 le_rfl (by simp [vec3])
  have n1 : ‖vec3 4 0 0‖ = 4 := nrm3 (by norm_num) (by simp [vec3])
  have n2 : ‖vec3 0 3 0‖ = 3 := nrm3 (by norm_num) (by simp [vec3])
  have d1 : dist (vec3 0 0 0) (vec3 4 0 0) = 4 := by rw [dist_eq_norm]; exact nrm3 (by norm_num) (by simp [vec3])
  have d2 : dist (vec3 4 0 0) (vec3 0 3 0) = 5 := by rw [dist_eq_norm]; exact nrm3 (by norm_num) (by simp only [vec3, PiLp.sub_apply, PiLp.toLp_apply, Matrix.cons_val]; norm_num)
  have m1 : ‖vec3 0 0 0 - vec3 0 3 0‖ = 3 := nrm3 (by norm_num) (by simp [vec3])
  have m2 : ‖vec3 4 0 0 - vec3 0 3 0‖ = 5 := nrm3 (by norm_num) (by simp only [vec3, PiLp.sub_apply, PiLp.toLp_apply, Matrix.cons_val]; norm_num)
  have hc : cosE (vec3 0 0 0 - vec3 0 3 0) (vec3 4 0 0 - vec3 0 3 0) = 3 / 5 := by
    rw [cosE, m1, m2, inner3]; simp only [vec3, PiLp.sub_apply, PiLp.toLp_apply, Matrix.cons_val]; norm_num
  rcases C126_orthocenter (η := 0) le_rfl hs (by norm_num) hT (fun e => by have := congrArg (fun x : E 3 => x 0) e; simp [vec3] at this)
    (fun e => by have := congrArg (fun x : E 3 => x 0) e; simp [vec3] at this)
    (fun e => by have := congrArg (fun x : E 3 => x 1) e; simp [vec3] at this) (s := 4 / 5) (δ := 200 * 2⁻¹ ^ 53) (H := vec3 0 0 0)
    (by rw [hc, show (1 - (3 / 5) ^ 2 : ℝ) = (4 / 5) ^ 2 by norm_num, Real.sqrt_sq (by norm_num)]) (by norm_num) (by norm_num)
    (by rw [n1, d1]; norm_num; linarith) (by rw [n2, d2]; norm_num; linarith) ⟨1, 0, 0, by norm_num, by simp⟩
    (by rw [sub_self, inner_zero_left]) (by rw [inner3]; simp [vec3]) false with ⟨y, h1, h2⟩ | ⟨h1, -⟩
  · refine ⟨_, y, hT, h1, h2.trans ?_⟩
    rw [n0, d1, dist_self]
    norm_num
  · cases h1

end SkSpatial
