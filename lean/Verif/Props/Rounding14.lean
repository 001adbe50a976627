import Verif.Props.Rounding13
import Verif.Props.Line
import Verif.Props.CylinderFit
import Verif.Props.CoplanarRounded
/-! # C109: intersections and distances of lines under rounding -/

namespace SkSpatial
open StdRounding

variable {u η : ℝ} {fl : Arith} {n : ℕ}

theorem sine_cross (hn : n ≤ 3) {d e : E n} (hd : d ≠ 0) (he : e ≠ 0) :
    ‖crossE (pad3 d) (pad3 e)‖ = ‖d‖ * ‖e‖ * √(1 - cosE d e ^ 2) := by
  have h1 : 0 < ‖d‖ := norm_pos_iff.mpr hd
  have h2 : 0 < ‖e‖ := norm_pos_iff.mpr he
  have h3 := crossE_norm_sq (pad3 d) (pad3 e)
  rw [norm_pad3 hn, norm_pad3 hn, inner_pad3 hn] at h3
  have h4 : (inner ℝ d e : ℝ) = cosE d e * (‖d‖ * ‖e‖) := by rw [cosE]; field_simp
  rw [← Real.sqrt_sq (norm_nonneg (crossE (pad3 d) (pad3 e))), h3, h4,
    show ‖d‖ ^ 2 * ‖e‖ ^ 2 - (cosE d e * (‖d‖ * ‖e‖)) ^ 2 = (‖d‖ * ‖e‖) ^ 2 * (1 - cosE d e ^ 2) by ring,
    Real.sqrt_mul (by positivity), Real.sqrt_sq (by positivity)]

theorem kappa_bounds {c : ℝ} (hc : |c| < 1 - 15 / 10 ^ 10) : 1 ≤ (√(1 - c ^ 2))⁻¹ ∧ (√(1 - c ^ 2))⁻¹ ≤ 20000 := by
  have h0 := abs_nonneg c
  have h1 : c ^ 2 ≤ (1 - 15 / 10 ^ 10) ^ 2 := by rw [← sq_abs]; exact pow_le_pow_left₀ h0 hc.le 2
  have h2 : (1 / 20000 : ℝ) ≤ √(1 - c ^ 2) := by
    refine Real.le_sqrt_of_sq_le ?_
    norm_num at h1 ⊢
    linarith
  have h3 : √(1 - c ^ 2) ≤ 1 := by
    exact Real.sqrt_le_iff.mpr ⟨zero_le_one, by have := sq_nonneg c; linarith⟩
  have hp : 0 < √(1 - c ^ 2) := by linarith
  refine ⟨(one_le_inv₀ hp).mpr h3, ?_⟩
  rw [inv_le_comm₀ hp (by norm_num)]
  linarith

theorem sqrt_two_le : √2 ≤ 3 / 2 := by
  rw [Real.sqrt_le_left (by norm_num)]; norm_num

/-- The rounded common perpendicular of two directions. -/
theorem perp_rd [NeZero n] (hn : n ≤ 3) (h : StdRounding u fl) (hu : u ≤ 1 / 10 ^ 11) {d e : E n} (hd : d ≠ 0) (he : e ≠ 0)
    (hc : |cosE d e| < 1 - 15 / 10 ^ 10) {κ : ℝ} (hκ : κ = (√(1 - cosE d e ^ 2))⁻¹) :
    ∃ N' N : E 3, N = crossE (pad3 d) (pad3 e) ∧ @Vec.cross ℝ (rounded fl) (arr d) (arr e) = .ok (arr N') ∧ 0 < ‖N‖ ∧
      κ * ‖N‖ = ‖d‖ * ‖e‖ ∧ 1 ≤ κ ∧ κ * u ≤ 1 / 10 ^ 6 ∧ ‖N' - N‖ ≤ 6 * u * κ * ‖N‖ := by
  have hu0 := h.nonneg
  have h1 : 0 < ‖d‖ := norm_pos_iff.mpr hd
  have h2 : 0 < ‖e‖ := norm_pos_iff.mpr he
  obtain ⟨k1, k2⟩ := kappa_bounds hc
  rw [← hκ] at k1 k2
  obtain ⟨N', hN', eN⟩ := cross_rd hn h le_rfl (CRP.refl (eps u) d) (CRP.refl (eps u) e)
  obtain ⟨N, hN⟩ : ∃ N, N = crossE (pad3 d) (pad3 e) := ⟨_, rfl⟩
  have hs := sine_cross hn hd he
  rw [← hN] at hs eN
  have hκN : κ * ‖N‖ = ‖d‖ * ‖e‖ := by
    have hp : √(1 - cosE d e ^ 2) ≠ 0 := by
      intro hz; rw [hκ, hz, inv_zero] at k1; linarith
    rw [hκ, hs]; field_simp
  have x : Real.exp ((2 * 0 + 2) * eps u) - 1 ≤ 2 * 2 * u := by
    rw [show (2 * 0 + 2 : ℝ) = 2 by norm_num]; exact exp_eps_le2 h (by norm_num) (by norm_num at hu; linarith)
  refine ⟨N', N, hN, hN', ?_, hκN, k1, ?_, ?_⟩
  · have : 0 < κ * ‖N‖ := by rw [hκN]; positivity
    exact pos_of_mul_pos_right this (by linarith)
  · calc κ * u ≤ 20000 * (1 / 10 ^ 11) := mul_le_mul k2 hu hu0 (by norm_num)
      _ ≤ _ := by norm_num
  · refine eN.trans ?_
    rw [mul_assoc (6 * u), hκN]
    refine mul_le_mul_of_nonneg_right ?_ (by positivity)
    have := mul_le_mul sqrt_two_le x (by linarith [one_le_exp_eps h (k := 2 * 0 + 2) (by norm_num)]) (by norm_num)
    exact this.trans (by linarith)

/-- Numerator and denominator of the parameter of the intersection point. -/
theorem meet_const {u κ W E A A' N N' num' den' num : ℝ} (hu : 0 ≤ u) (hκu : κ * u ≤ 1 / 10 ^ 6) (hκ : 1 ≤ κ) (hE : 0 ≤ E)
    (hW : 0 ≤ W) (hN : 0 ≤ N) (hA : A ≤ W * E) (dA : A' ≤ A + 12 * u * (W * E)) (dN : |N' - N| ≤ 6 * u * κ * N)
    (hA0 : 0 ≤ A) (hA'0 : 0 ≤ A') (hN'0 : 0 ≤ N') (hden : |den' - N' ^ 2| ≤ 14 * u * N' ^ 2)
    (hnum : |num' - num| ≤ 8 * u * (A' * N') + 12 * u * (W * E) * N' + A * (6 * u * κ * N)) :
    |num' - num| ≤ 27 * u * κ * (E * N * W) ∧ |den' - N ^ 2| ≤ 27 * u * (κ * N ^ 2) := by
  have huκ : u ≤ κ * u := by nlinarith
  have hN2 : N' ≤ 101 / 100 * N := by
    have := (abs_le.mp dN).2
    have e : 6 * u * κ * N ≤ 1 / 100 * N := mul_le_mul_of_nonneg_right (by norm_num at hκu; linarith) hN
    linarith
  have hA2 : A' ≤ 101 / 100 * (W * E) := by
    have e : 12 * u * (W * E) ≤ 1 / 100 * (W * E) := mul_le_mul_of_nonneg_right (by norm_num at hκu; linarith) (by positivity)
    linarith
  obtain ⟨v, hv⟩ : ∃ v, v = κ * u := ⟨_, rfl⟩
  rw [← hv] at huκ
  constructor
  · refine hnum.trans ?_
    have e1 : A' * N' ≤ 101 / 100 * (W * E) * (101 / 100 * N) := mul_le_mul hA2 hN2 hN'0 (by positivity)
    have e2 : 8 * u * (A' * N') ≤ 8 * v * (101 / 100 * (W * E) * (101 / 100 * N)) :=
      mul_le_mul (by linarith) e1 (by positivity) (by linarith)
    have e3 : 12 * u * (W * E) * N' ≤ 12 * v * (W * E) * (101 / 100 * N) :=
      mul_le_mul (mul_le_mul_of_nonneg_right (by linarith) (by positivity)) hN2 hN'0
        (mul_nonneg (by linarith) (by positivity))
    have e4 : A * (6 * u * κ * N) ≤ W * E * (6 * v * N) := by
      rw [hv, show 6 * u * κ * N = 6 * (κ * u) * N by ring]
      exact mul_le_mul_of_nonneg_right hA (by rw [← hv]; have : 0 ≤ v := by linarith
                                              positivity)
    obtain ⟨T, hT⟩ : ∃ T, T = v * (E * N * W) := ⟨_, rfl⟩
    have hT0 : 0 ≤ T := by rw [hT]; have : 0 ≤ v := by linarith
                           positivity
    have f2 : 8 * v * (101 / 100 * (W * E) * (101 / 100 * N)) = 8 * (101 / 100) ^ 2 * T := by rw [hT]; ring
    have f3 : 12 * v * (W * E) * (101 / 100 * N) = 12 * (101 / 100) * T := by rw [hT]; ring
    have f4 : W * E * (6 * v * N) = 6 * T := by rw [hT]; ring
    have f5 : 27 * u * κ * (E * N * W) = 27 * T := by rw [hT, hv]; ring
    rw [f2] at e2; rw [f3] at e3; rw [f4] at e4; rw [f5]
    norm_num at e2 e3
    linarith
  · have e1 : N' ^ 2 ≤ (101 / 100 * N) ^ 2 := pow_le_pow_left₀ hN'0 hN2 2
    have e2 : |N' ^ 2 - N ^ 2| ≤ 6 * v * N * (201 / 100 * N) := by
      rw [show N' ^ 2 - N ^ 2 = (N' - N) * (N' + N) by ring, abs_mul, abs_of_nonneg (by positivity : 0 ≤ N' + N)]
      refine mul_le_mul (by rw [hv]; linarith) (by linarith) (by positivity) ?_
      have : 0 ≤ v := by linarith
      positivity
    have e3 : 14 * u * N' ^ 2 ≤ 14 * v * (101 / 100 * N) ^ 2 := mul_le_mul (by linarith) e1 (by positivity) (by linarith)
    have e4 := abs_add_le (den' - N' ^ 2) (N' ^ 2 - N ^ 2)
    rw [sub_add_sub_cancel] at e4
    refine e4.trans ((add_le_add (hden.trans e3) e2).trans ?_)
    obtain ⟨T, hT⟩ : ∃ T, T = v * N ^ 2 := ⟨_, rfl⟩
    have hT0 : 0 ≤ T := by rw [hT]; have : 0 ≤ v := by linarith
                           positivity
    have f1 : 14 * v * (101 / 100 * N) ^ 2 + 6 * v * N * (201 / 100 * N) = (14 * (101 / 100) ^ 2 + 6 * (201 / 100)) * T := by
      rw [hT]; ring
    have f2 : 27 * u * (κ * N ^ 2) = 27 * T := by rw [hT, hv]; ring
    rw [f1, f2]
    refine mul_le_mul_of_nonneg_right (by norm_num) hT0

/-- The point of the first line moves off the second line at the rate `sin`. -/
theorem infDist_move (p d q e : E n) (he : e ≠ 0) (hd : d ≠ 0) (t t' : ℝ) :
    Metric.infDist (p + t' • d) (lineSet q e) ≤
      Metric.infDist (p + t • d) (lineSet q e) + |t' - t| * (‖d‖ * √(1 - cosE d e ^ 2)) := by
  have hd0 : 0 < ‖d‖ := norm_pos_iff.mpr hd
  have he0 : 0 < ‖e‖ := norm_pos_iff.mpr he
  have hne : (lineSet q e).Nonempty := ⟨q, 0, by simp⟩
  obtain ⟨r, hr⟩ : ∃ r : ℝ, r = inner ℝ d e / ‖e‖ ^ 2 := ⟨_, rfl⟩
  have hrej : ‖d - r • e‖ = ‖d‖ * √(1 - cosE d e ^ 2) := by
    have h1 : ‖d - r • e‖ ^ 2 = ‖d‖ ^ 2 * (1 - cosE d e ^ 2) := by
      rw [norm_sub_sq_real, norm_smul, real_inner_smul_right, Real.norm_eq_abs, mul_pow, sq_abs, hr, cosE]
      field_simp
      ring
    rw [← Real.sqrt_sq (norm_nonneg (d - r • e)), h1, Real.sqrt_mul (by positivity), Real.sqrt_sq hd0.le]
  rw [← hrej, ← sub_le_iff_le_add, Metric.le_infDist hne]
  rintro y ⟨s, rfl⟩
  have h1 : Metric.infDist (p + t' • d) (lineSet q e) ≤ dist (p + t' • d) (q + (s + (t' - t) * r) • e) :=
    Metric.infDist_le_dist_of_mem ⟨_, rfl⟩
  have h2 : p + t' • d - (q + (s + (t' - t) * r) • e) = (p + t • d - (q + s • e)) + (t' - t) • (d - r • e) := by module
  rw [dist_eq_norm, h2] at h1
  have h3 := norm_add_le (p + t • d - (q + s • e)) ((t' - t) • (d - r • e))
  rw [norm_smul, Real.norm_eq_abs] at h3
  rw [dist_eq_norm]
  linarith

theorem line_new_rd [NeZero n] (h : StdRounding u fl) (hu : u ≤ 1 / 2) {p d : E n} {L : Line ℝ}
    (hL : @Line.new ℝ (rounded fl) (arr p) (arr d) = .ok L) : d ≠ 0 ∧ L = ⟨arr p, arr d⟩ := by
  by_cases hd : d = 0
  · have := ((C73_constructors h hu p d).2 hd).1
    rw [this] at hL; cases hL
  · have := ((C73_constructors h hu p d).1 hd).1
    rw [this] at hL; cases hL; exact ⟨hd, rfl⟩

theorem not_dependent {d e : E n} (hd : d ≠ 0) (he : e ≠ 0) (hc : |cosE d e| < 1 - 15 / 10 ^ 10) : LinearIndependent ℝ ![d, e] := by
  refine independent_of_not_near fun hnp => ?_
  rcases hnp with h | h | h
  · exact hd h
  · exact he h
  · norm_num at hc h; linarith

theorem not_parallel_rd [NeZero n] (hn : n ≤ 3) (h : StdRounding u fl) (hu : u ≤ 1 / 10 ^ 11) {d e : E n} (hd : d ≠ 0)
    (he : e ≠ 0) (hc : |cosE d e| < 1 - 15 / 10 ^ 10) :
    @Vec.isParallel ℝ (rounded fl) (@Tol.default ℝ (rounded fl)) (arr d) (arr e) = .ok false := by
  obtain ⟨b, hb1, -, hb2⟩ := C77_is_parallel (n := n) h (by
    have hu0 := h.nonneg
    have : (n : ℝ) ≤ 3 := by exact_mod_cast hn
    have : (2 * (n : ℝ) + 6) * u ≤ 12 * u := mul_le_mul_of_nonneg_right (by linarith) hu0
    norm_num at hu ⊢; linarith) d e
  have hbf : b = false := by
    by_contra hcon
    rcases hb2 (by simpa using hcon) with h1 | h1 | h1
    · exact hd h1
    · exact he h1
    · norm_num at h1 hc; linarith
  rw [hb1, hbf]

theorem meet_const2 {u Q κ W : ℝ} (hu : 0 ≤ u) (hκ : 1 ≤ κ) (hW : 0 ≤ W) :
    u * (2 * Q + 20 * κ * W) + 108 * (u * (κ ^ 2 * W)) ≤ u * (2 * Q + 130 * κ ^ 2 * W) := by
  have e3 : κ * W ≤ κ ^ 2 * W := by nlinarith [mul_nonneg (by linarith : 0 ≤ κ) hW]
  have e4 := mul_le_mul_of_nonneg_left e3 hu
  have e5 := mul_nonneg hu (by positivity : 0 ≤ κ ^ 2 * W)
  linarith

theorem meet_const3 {u Q κ W a b c m d : ℝ} (hu : 0 ≤ u) (hκW : 0 ≤ κ * W) (e1 : b ≤ c + m) (e2 : m ≤ 108 * (u * (κ * W)))
    (e3 : a ≤ b + d) (hz : d ≤ u * (2 * Q + 20 * κ * W)) : a ≤ c + u * (2 * Q + 130 * κ * W) := by
  have e5 := mul_nonneg hu hκW
  linarith

/-- C109: `line.intersect_line(other)` under rounding, for a unit roundoff of at most `1e-11` and lines at an angle that is
not negligible (`|cos| < 1 - 1.5e-9`).  Provided that the check for coplanarity, if it is made, succeeds, it returns a point
`y`.  Let `κ = 1 / sin` for the angle between the lines, `W` the distance of their points, and `x` the point of the first
line nearest to the second (their intersection point, if they meet).  Then `y` is

* within `u (2 ‖p‖ + 130 κ² W)` of `x`,
* within `u (2 ‖p‖ + 20 κ W)` of the first line,
* no further from the second line than `x` is, up to `u (2 ‖p‖ + 130 κ W)`. -/
theorem C109_intersect_line [NeZero n] (hn : n ≤ 3) (h : StdRounding u fl) (hu : u ≤ 1 / 10 ^ 11) [ext : NumpyExt ℝ]
    {p d q e : E n} {L M : Line ℝ} (hL : @Line.new ℝ (rounded fl) (arr p) (arr d) = .ok L)
    (hM : @Line.new ℝ (rounded fl) (arr q) (arr e) = .ok M) (hc : |cosE d e| < 1 - 15 / 10 ^ 10)
    (check : Bool) (hcheck : check = true → @Line.isCoplanar ℝ (rounded fl) ext none L (.line M) = .ok true) :
    ∃ y x : E n, @Line.intersectLine ℝ (rounded fl) ext L M check (@Tol.default ℝ (rounded fl)) = .ok (arr y) ∧
      x ∈ lineSet p d ∧ (∀ z ∈ lineSet p d, Metric.infDist x (lineSet q e) ≤ Metric.infDist z (lineSet q e)) ∧
      dist y x ≤ u * (2 * ‖p‖ + 130 * (√(1 - cosE d e ^ 2))⁻¹ ^ 2 * dist p q) ∧
      Metric.infDist y (lineSet p d) ≤ u * (2 * ‖p‖ + 20 * (√(1 - cosE d e ^ 2))⁻¹ * dist p q) ∧
      Metric.infDist y (lineSet q e) ≤
        Metric.infDist x (lineSet q e) + u * (2 * ‖p‖ + 130 * (√(1 - cosE d e ^ 2))⁻¹ * dist p q) := by
  have hu0 := h.nonneg
  have hε := h.eps_nonneg
  have hu100 : u ≤ 1 / 100 := by norm_num at hu; linarith
  obtain ⟨hd, rfl⟩ := line_new_rd h (by linarith) hL
  obtain ⟨he, rfl⟩ := line_new_rd h (by linarith) hM
  have hd0 : 0 < ‖d‖ := norm_pos_iff.mpr hd
  have he0 : 0 < ‖e‖ := norm_pos_iff.mpr he
  obtain ⟨κ, hκ⟩ : ∃ κ, κ = (√(1 - cosE d e ^ 2))⁻¹ := ⟨_, rfl⟩
  obtain ⟨N', N, hN, hN', hNp, hκN, hκ1, hκu, eN⟩ := perp_rd hn h hu hd he hc hκ
  rw [← hκ]
  obtain ⟨w, hw, cw⟩ := from_crp h p q
  obtain ⟨W, hW⟩ : ∃ W, W = dist p q := ⟨_, rfl⟩
  rw [← hW]
  have hW0 : 0 ≤ W := by rw [hW]; exact dist_nonneg
  have hWq : ‖q - p‖ = W := by rw [hW, dist_comm, dist_eq_norm]
  have ce : CRP (eps u) 1 e e := fun i => (RP.refl (eps u) (e i)).mono hε (by norm_num)
  obtain ⟨A', hA', eA⟩ := cross_rd hn h zero_le_one cw ce
  obtain ⟨A, hA⟩ : ∃ A, A = crossE (pad3 (q - p)) (pad3 e) := ⟨_, rfl⟩
  rw [← hA, hWq] at eA
  have hAle : ‖A‖ ≤ W * ‖e‖ := by
    rw [hA, ← hWq, ← norm_pad3 hn (q - p), ← norm_pad3 hn e]; exact norm_crossE_le _ _
  have xA : Real.exp ((2 * 1 + 2) * eps u) - 1 ≤ 2 * 4 * u := by
    rw [show (2 * 1 + 2 : ℝ) = 4 by norm_num]; exact exp_eps_le2 h (by norm_num) (by linarith)
  have eA' : ‖A' - A‖ ≤ 12 * u * (W * ‖e‖) := by
    refine eA.trans (mul_le_mul_of_nonneg_right ?_ (by positivity))
    have := mul_le_mul sqrt_two_le xA (by linarith [one_le_exp_eps h (k := 2 * 1 + 2) (by norm_num)]) (by norm_num)
    exact this.trans (by linarith)
  obtain ⟨num', hnum'⟩ : ∃ x, x = @dotv ℝ (rounded fl) (arr A') (arr N') := ⟨_, rfl⟩
  obtain ⟨num, hnum⟩ : ∃ x : ℝ, x = inner ℝ A N := ⟨_, rfl⟩
  have eD := h.dotv_abs' le_rfl le_rfl (CRP.refl (eps u) A') (CRP.refl (eps u) N')
  rw [← hnum'] at eD
  have xD : Real.exp ((0 + 0 + 1 + (3 : ℕ)) * eps u) - 1 ≤ 2 * 4 * u := by
    rw [show (0 + 0 + 1 + (3 : ℕ) : ℝ) = 4 by norm_num]; exact exp_eps_le2 h (by norm_num) (by linarith)
  have eD' : |num' - inner ℝ A' N'| ≤ 8 * u * (‖A'‖ * ‖N'‖) :=
    eD.trans (mul_le_mul_of_nonneg_right (xD.trans (by linarith)) (by positivity))
  have enum : |num' - num| ≤ 8 * u * (‖A'‖ * ‖N'‖) + 12 * u * (W * ‖e‖) * ‖N'‖ + ‖A‖ * (6 * u * κ * ‖N‖) := by
    have e1 : num' - num = (num' - inner ℝ A' N') + (inner ℝ (A' - A) N' + inner ℝ A (N' - N)) := by
      rw [hnum, inner_sub_left, inner_sub_right]; ring
    rw [e1]
    have e2 := abs_add_le (num' - inner ℝ A' N') (inner ℝ (A' - A) N' + inner ℝ A (N' - N))
    have e3 := abs_add_le (inner ℝ (A' - A) N' : ℝ) (inner ℝ A (N' - N))
    have e4 := (abs_real_inner_le_norm (A' - A) N').trans (mul_le_mul_of_nonneg_right eA' (norm_nonneg _))
    have e5 := (abs_real_inner_le_norm A (N' - N)).trans (mul_le_mul_of_nonneg_left eN (norm_nonneg _))
    linarith
  obtain ⟨nv, hnv⟩ : ∃ x, x = @normv ℝ (rounded fl) (arr N') := ⟨_, rfl⟩
  have rn := h.normv_rp le_rfl (CRP.refl (eps u) N')
  rw [← hnv] at rn
  have rden := h.step (rn.mul rn)
  have eden : |fl (nv * nv) - ‖N'‖ ^ 2| ≤ 14 * u * ‖N'‖ ^ 2 := by
    have := rden.abs_sub_le
    rw [← pow_two ‖N'‖, abs_of_nonneg (by positivity : 0 ≤ ‖N'‖ ^ 2)] at this
    refine this.trans (mul_le_mul_of_nonneg_right ?_ (by positivity))
    rw [show (0 + ((3 : ℕ) + 3) / 2 + (0 + ((3 : ℕ) + 3) / 2) + 1 : ℝ) = 7 by norm_num]
    exact (exp_eps_le2 h (by norm_num) (by linarith)).trans (by linarith)
  obtain ⟨den', hden'⟩ : ∃ x, x = fl (nv * nv) := ⟨_, rfl⟩
  rw [← hden'] at eden
  obtain ⟨b1, b2⟩ := meet_const hu0 hκu hκ1 he0.le hW0 hNp.le hAle
    (by have := norm_sub_norm_le A' A; linarith) ((abs_norm_sub_norm_le N' N).trans eN) (norm_nonneg _) (norm_nonneg _)
    (norm_nonneg _) eden enum
  have hκD : κ = ‖e‖ * ‖N‖ * ‖d‖ / |‖N‖ ^ 2| := by
    rw [abs_of_pos (by positivity), eq_div_iff (by positivity)]
    calc κ * ‖N‖ ^ 2 = κ * ‖N‖ * ‖N‖ := by ring
      _ = _ := by rw [hκN]; ring
  have hnW : |num| ≤ ‖e‖ * ‖N‖ * W := by
    rw [hnum]
    refine (abs_real_inner_le_norm _ _).trans ?_
    calc ‖A‖ * ‖N‖ ≤ W * ‖e‖ * ‖N‖ := mul_le_mul_of_nonneg_right hAle (norm_nonneg _)
      _ = _ := by ring
  have hbκ : 27 * u * κ ≤ 1 / 2 := by norm_num at hκu; linarith
  obtain ⟨hden0, t1, t2⟩ := quot_perturb (D := ‖N‖ ^ 2) (D' := den') (a := 27 * u * κ) (b := 27 * u) (by positivity)
    (by positivity : 0 ≤ ‖e‖ * ‖N‖) hd0.le hW0 (by positivity) (by positivity) hκD hnW b1
    (b2.trans (le_of_eq (by rw [show κ * ‖N‖ ^ 2 = κ * ‖N‖ * ‖N‖ by ring, hκN]; ring))) hbκ
  obtain ⟨s, hs, hsi⟩ := smul_rd (fl := fl) (fl (num' / den')) d
  obtain ⟨y, hy, hyi⟩ := vadd_rd (fl := fl) p s
  have hpar := not_parallel_rd hn h hu hd he hc
  have hcomp : @Line.intersectLine ℝ (rounded fl) ext ⟨arr p, arr d⟩ ⟨arr q, arr e⟩ check (@Tol.default ℝ (rounded fl)) =
      .ok (arr y) := by
    have hn3 : ¬ (3 < n) := by omega
    have tail : (do
        let ab ← @Vec.fromPoints ℝ (rounded fl) (arr p) (arr q)
        let perp ← @Vec.cross ℝ (rounded fl) (arr d) (arr e)
        let abx ← @Vec.cross ℝ (rounded fl) ab (arr e)
        let num ← @dot ℝ (rounded fl) abx perp
        @vadd ℝ (rounded fl) (arr p) (@smul ℝ (rounded fl) ((rounded fl).div num (@sq ℝ (rounded fl) (@Vec.norm ℝ (rounded fl) perp))) (arr d))) =
        Except.ok (arr y) := by
      simp only [hw, ok_bind, hN', hA', dot_rd, ← hnum', Vec.norm, ← hnv, sq_rd, ← hden', div_rd, hs, hy]
    cases check with
    | false =>
      simp only [Line.intersectLine, Line.dimension, length_arr, hpar, ok_bind, pure_ok]
      simpa [hn3] using tail
    | true =>
      simp only [Line.intersectLine, Line.dimension, length_arr, hpar, ok_bind, pure_ok, hcheck rfl]
      simpa [hn3] using tail
  obtain ⟨t, ht⟩ : ∃ t, t = num / ‖N‖ ^ 2 := ⟨_, rfl⟩
  obtain ⟨t', ht'⟩ : ∃ t', t' = num' / den' := ⟨_, rfl⟩
  rw [← ht, ← ht'] at t1 t2
  have hcs : CRP (eps u) 2 s (t' • d) := by
    intro i
    rw [hsi, ← ht']
    have := h.step ((h.rp t').mul (RP.refl (eps u) (d i)))
    rw [show (1 + 0 + 1 : ℝ) = 2 by norm_num] at this
    simpa using this
  have x2 : Real.exp (2 * eps u) - 1 ≤ 2 * 2 * u := exp_eps_le2 h (by norm_num) (by linarith)
  have x1 : Real.exp (1 * eps u) - 1 ≤ 2 * 1 * u := exp_eps_le2 h le_rfl (by linarith)
  have f1 : ‖s - t' • d‖ ≤ 4 * u * ‖t' • d‖ :=
    (CRP.norm_sub_le hcs (by positivity)).trans (by linarith [mul_le_mul_of_nonneg_right x2 (norm_nonneg (t' • d))])
  have hcy : CRP (eps u) 1 y (p + s) := fun i => by rw [hyi]; exact h.rp _
  have f2 : ‖y - (p + s)‖ ≤ 2 * u * (‖p‖ + ‖s‖) :=
    (CRP.norm_sub_le hcy (by positivity)).trans (by
      have e1 := mul_le_mul_of_nonneg_right x1 (norm_nonneg (p + s))
      have e2 := mul_le_mul_of_nonneg_left (norm_add_le p s) (by positivity : 0 ≤ 2 * u)
      linarith)
  have f3 : ‖t' • d‖ ≤ κ * W + (2 * (27 * u * κ) * κ * W + 2 * (27 * u) * κ ^ 2 * W) := by
    have e1 : |t| * ‖d‖ ≤ κ * W := by
      rw [ht, abs_div, hκD, div_mul_eq_mul_div, div_mul_eq_mul_div]
      refine div_le_div_of_nonneg_right ?_ (abs_nonneg _)
      have := mul_le_mul_of_nonneg_right hnW hd0.le
      linarith
    have e2 : |t'| ≤ |t| + |t' - t| := by
      have := abs_add_le t (t' - t); rwa [add_sub_cancel] at this
    rw [norm_smul, Real.norm_eq_abs]
    have e3 := mul_le_mul_of_nonneg_right e2 hd0.le
    linarith
  have f4 : ‖s‖ ≤ ‖t' • d‖ + ‖s - t' • d‖ := by
    have := norm_add_le (t' • d) (s - t' • d); rwa [add_sub_cancel] at this
  have f5 := point_const hu0 (by linarith : u ≤ 1 / 12) hκ1 hW0 (norm_nonneg p) hbκ hbκ f3 f1 f4 f2
  have hz : dist y (p + t' • d) ≤ u * (2 * ‖p‖ + 20 * κ * W) := by
    refine le_trans ?_ f5
    rw [dist_eq_norm, show y - (p + t' • d) = (s - t' • d) + (y - (p + s)) by abel]
    exact norm_add_le _ _
  have hκW : 0 ≤ κ * W := by positivity
  have t1' : |t' - t| * ‖d‖ ≤ 108 * (u * (κ ^ 2 * W)) := t1.trans (le_of_eq (by ring))
  refine ⟨y, p + t • d, hcomp, ⟨t, rfl⟩, ?_, ?_, ?_, ?_⟩
  · have hli : LinearIndependent ℝ ![d, e] := not_dependent hd he hc
    obtain ⟨-, c1, c2⟩ := closest_points hn hli (p := p) (q := q)
    rw [← hN, ← hA, ← hnum, ← ht] at c1 c2
    intro z hzm
    refine le_trans (Metric.infDist_le_dist_of_mem (y := q - ((inner ℝ (crossE (pad3 d) (pad3 (q - p))) N : ℝ) / ‖N‖ ^ 2) • e) ?_) ?_
    · exact ⟨-((inner ℝ (crossE (pad3 d) (pad3 (q - p))) N : ℝ) / ‖N‖ ^ 2), by rw [neg_smul]; abel⟩
    · rw [Metric.le_infDist (s := lineSet q e) ⟨q, 0, by simp⟩]
      exact fun y' hy' => c2 z hzm y' hy'
  · have e1 : dist (p + t' • d) (p + t • d) ≤ 108 * (u * (κ ^ 2 * W)) := by
      rw [dist_eq_norm, add_sub_add_left_eq_sub, ← sub_smul, norm_smul, Real.norm_eq_abs]; exact t1'
    have e2 := (dist_triangle y (p + t' • d) (p + t • d)).trans (add_le_add hz e1)
    exact e2.trans (meet_const2 hu0 hκ1 hW0)
  · exact (Metric.infDist_le_dist_of_mem (s := lineSet p d) ⟨t', rfl⟩).trans hz
  · have e1 := infDist_move p d q e he hd t t'
    have e2 : |t' - t| * (‖d‖ * √(1 - cosE d e ^ 2)) ≤ 108 * (u * (κ * W)) := by
      have hsp : √(1 - cosE d e ^ 2) = κ⁻¹ := by rw [hκ, inv_inv]
      rw [hsp, ← mul_assoc, ← div_eq_mul_inv, div_le_iff₀ (by linarith)]
      exact t1'.trans (le_of_eq (by ring))
    have e3 : Metric.infDist y (lineSet q e) ≤ Metric.infDist (p + t' • d) (lineSet q e) + dist y (p + t' • d) :=
      Metric.infDist_le_infDist_add_dist
    exact meet_const3 hu0 hκW e1 e2 e3 hz

/-- `is_coplanar` returns under rounding, and finds all lines of dimension at most 2 coplanar. -/
theorem isCoplanar_rd [NeZero n] (h : StdRounding u fl) [ext : NumpyExt ℝ] [hS : StableNumpy η] (p d q e : E n) {tol : Option ℝ}
    (htol : ∀ t, tol = some t → 0 ≤ t) :
    ∃ b, @Line.isCoplanar ℝ (rounded fl) ext tol ⟨arr p, arr d⟩ (.line ⟨arr q, arr e⟩) = .ok b ∧ (n ≤ 2 → b = true) := by
  classical
  obtain ⟨s1, hs1, -⟩ := smul_rd (fl := fl) (@one ℝ (rounded fl)) d
  obtain ⟨s2, hs2, -⟩ := smul_rd (fl := fl) (@one ℝ (rounded fl)) e
  obtain ⟨a, ha, -⟩ := vadd_rd (fl := fl) p s1
  obtain ⟨b, hb, -⟩ := vadd_rd (fl := fl) q s2
  obtain ⟨r, t, s', h1, hs', h2, h3, -, -, h4⟩ := affineRank_rd_core (η := η) h (P := [p, a, q, b]) (by simp) tol
  have hrows : [arr p, arr a, arr q, arr b] = rows [p, a, q, b] := rfl
  refine ⟨decide (r ≤ 2), ?_, fun hn => ?_⟩
  · simp only [Line.isCoplanar, Line.toPoint, hs1, hs2, ha, hb, ok_bind, hrows, newPoints_rd (P := [p, a, q, b]) (by simp),
      Pts.areCoplanar, h1, pure_ok]
  · have ht : 0 ≤ t := by
      cases tol with
      | some t0 => rw [h2 t0 rfl]; exact htol t0 rfl
      | none =>
        have h5 := (abs_le.mp (h3 rfl)).1
        have h6 : 0 ≤ s' * (max [p, a, q, b].toFinset.card n : ℕ) * (2 : ℝ)⁻¹ ^ 52 := by positivity
        nlinarith [hS.lt_one]
    obtain ⟨U, hU, -⟩ := (h4 ht).2
    have := Submodule.finrank_le U
    rw [finrank_euclideanSpace_fin] at this
    exact decide_eq_true (by omega)

/-- C109: lines in the plane (and on a line) are always found coplanar, whatever the rounding, so that `intersect_line` never
raises "The lines must be coplanar." for them and returns the point of `C109_intersect_line`. -/
theorem C109_plane [NeZero n] (hn : n ≤ 2) (h : StdRounding u fl) (hu : u ≤ 1 / 10 ^ 11) [ext : NumpyExt ℝ] [hS : StableNumpy η]
    {p d q e : E n} {L M : Line ℝ} (hL : @Line.new ℝ (rounded fl) (arr p) (arr d) = .ok L)
    (hM : @Line.new ℝ (rounded fl) (arr q) (arr e) = .ok M) :
    @Line.isCoplanar ℝ (rounded fl) ext none L (.line M) = .ok true ∧
    (|cosE d e| < 1 - 15 / 10 ^ 10 →
      @Line.distanceLine ℝ (rounded fl) ext L M = .ok 0 ∧
      ∀ check, ∃ y, @Line.intersectLine ℝ (rounded fl) ext L M check (@Tol.default ℝ (rounded fl)) = .ok (arr y) ∧
        ∃ x ∈ lineSet p d ∩ lineSet q e, dist y x ≤ u * (2 * ‖p‖ + 130 * (√(1 - cosE d e ^ 2))⁻¹ ^ 2 * dist p q)) := by
  have hu2 : u ≤ 1 / 2 := by norm_num at hu; linarith
  obtain ⟨hd, hLe⟩ := line_new_rd h hu2 hL
  obtain ⟨he, hMe⟩ := line_new_rd h hu2 hM
  obtain ⟨b, hb1, hb2⟩ := isCoplanar_rd (η := η) h p d q e (tol := none) (by simp)
  have hcop : @Line.isCoplanar ℝ (rounded fl) ext none L (.line M) = .ok true := by
    rw [hLe, hMe, hb1, hb2 hn]
  refine ⟨hcop, fun hc => ⟨?_, fun check => ?_⟩⟩
  · have hp := not_parallel_rd (by omega) h hu hd he hc
    rw [hLe, hMe] at hcop ⊢
    simp only [Line.distanceLine, hp, ok_bind, hcop, pure_ok, Bool.false_eq_true, if_false, if_true]
    rw [zero_rd]
  · obtain ⟨y, x, h1, h2, h3, h4, -⟩ := C109_intersect_line (by omega) h hu hL hM hc check fun _ => hcop
    refine ⟨y, h1, x, ⟨h2, ?_⟩, h4⟩
    have hli := not_dependent hd he hc
    obtain ⟨z, hz1, hz2⟩ : ∃ x, x ∈ lineSet p d ∧ x ∈ lineSet q e := by
      rw [← meet_iff, ← coplanar_iff_meet hli, coplanar_iff_finrank_le_two]
      exact (Submodule.finrank_le _).trans (by rw [finrank_euclideanSpace_fin]; exact hn)
    have h5 := h3 z hz1
    rw [Metric.infDist_zero_of_mem hz2, infDist_lineSet q he] at h5
    rw [dist_le_zero.mp h5]
    exact footE_mem _ _ _

theorem dist_const {u κ W N N' nv num num' : ℝ} (hu : 0 ≤ u) (hκu : κ * u ≤ 1 / 10 ^ 6) (hκ : 1 ≤ κ) (hW : 0 ≤ W)
    (hN : 0 < N) (hN'0 : 0 ≤ N') (dN : |N' - N| ≤ 6 * u * κ * N) (hnum : |num| ≤ W * N) (hnv : |nv - N'| ≤ 6 * u * N')
    (hA : |num' - num| ≤ 10 * u * (W * N') + W * (6 * u * κ * N)) :
    0 < nv ∧ |(|num'| / nv) - |num| / N| ≤ 31 * (u * (κ * W)) := by
  have huκ : u ≤ κ * u := by nlinarith
  obtain ⟨v, hv⟩ : ∃ v, v = κ * u := ⟨_, rfl⟩
  rw [← hv] at huκ hκu
  have hv0 : 0 ≤ v := by linarith
  have dN' : |N' - N| ≤ 6 * v * N := dN.trans (le_of_eq (by rw [hv]; ring))
  have hN2 : N' ≤ 101 / 100 * N := by
    have := (abs_le.mp dN').2
    have e : 6 * v * N ≤ 1 / 100 * N := mul_le_mul_of_nonneg_right (by norm_num at hκu; linarith) hN.le
    linarith
  have h1 : |nv - N| ≤ 13 * v * N := by
    have e1 := abs_add_le (nv - N') (N' - N)
    rw [sub_add_sub_cancel] at e1
    have e2 : 6 * u * N' ≤ 6 * v * (101 / 100 * N) := mul_le_mul (by linarith) hN2 hN'0 (by linarith)
    have e3 : 0 ≤ v * N := by positivity
    linarith
  have h2 : 99 / 100 * N ≤ nv := by
    have := (abs_le.mp h1).1
    have e : 13 * v * N ≤ 1 / 100 * N := mul_le_mul_of_nonneg_right (by norm_num at hκu; linarith) hN.le
    linarith
  have hnv0 : 0 < nv := by linarith
  have h3 : |num' - num| ≤ 17 * v * (W * N) := by
    have e1 : 10 * u * (W * N') ≤ 10 * v * (W * (101 / 100 * N)) :=
      mul_le_mul (by linarith) (mul_le_mul_of_nonneg_left hN2 hW) (by positivity) (by linarith)
    have e2 : W * (6 * u * κ * N) = 6 * (v * (W * N)) := by rw [hv]; ring
    have e3 : 0 ≤ v * (W * N) := by positivity
    rw [e2] at hA
    linarith
  refine ⟨hnv0, ?_⟩
  have e : |num'| / nv - |num| / N = ((|num'| - |num|) - |num| / N * (nv - N)) / nv := by field_simp; ring
  have h4 : |num| / N ≤ W := by rw [div_le_iff₀ hN]; exact hnum
  have h5 : |(|num'| - |num|) - |num| / N * (nv - N)| ≤ 17 * v * (W * N) + W * (13 * v * N) := by
    refine (abs_sub _ _).trans (add_le_add ((abs_abs_sub_abs_le _ _).trans h3) ?_)
    rw [abs_mul, abs_of_nonneg (by positivity : 0 ≤ |num| / N)]
    exact mul_le_mul h4 h1 (abs_nonneg _) hW
  rw [e, abs_div, abs_of_pos hnv0, div_le_iff₀ hnv0]
  refine h5.trans ?_
  have e1 : 31 * (u * (κ * W)) * (99 / 100 * N) ≤ 31 * (u * (κ * W)) * nv := mul_le_mul_of_nonneg_left h2 (by positivity)
  refine le_trans ?_ e1
  have e2 : 31 * (u * (κ * W)) * (99 / 100 * N) = 31 * (99 / 100) * (v * (W * N)) := by rw [hv]; ring
  have e3 : 17 * v * (W * N) + W * (13 * v * N) = 30 * (v * (W * N)) := by ring
  rw [e2, e3]
  exact mul_le_mul_of_nonneg_right (by norm_num) (by positivity)

theorem dist_const2 {u κ W r x δ : ℝ} (hu : 0 ≤ u) (hκ : 1 ≤ κ) (hκu : κ * u ≤ 1 / 10 ^ 6) (hW : 0 ≤ W) (e1 : |r - x| ≤ u * |x|)
    (e2 : |x| ≤ W + 31 * (u * (κ * W))) (hq : |x - δ| ≤ 31 * (u * (κ * W))) : |r - δ| ≤ 40 * u * κ * W := by
  have e3 := abs_add_le (r - x) (x - δ)
  rw [sub_add_sub_cancel] at e3
  have e4 : |x| ≤ 2 * W := by
    have : 31 * (u * (κ * W)) ≤ 31 * (1 / 10 ^ 6) * W := by
      have := mul_le_mul_of_nonneg_right hκu hW
      linarith
    norm_num at this
    linarith
  have e5 := mul_le_mul_of_nonneg_left e4 hu
  have e6 : u * W ≤ u * (κ * W) := mul_le_mul_of_nonneg_left (by nlinarith) hu
  have e7 : 0 ≤ u * W := mul_nonneg hu hW
  have e8 : 40 * u * κ * W = 40 * (u * (κ * W)) := by ring
  rw [e8]
  linarith

/-- C109: `line.distance_line(other)` under rounding, for lines in space at an angle that is not negligible.  With
`κ = 1 / sin` and `W` the distance of their points, it is 0 if the lines are found coplanar, and otherwise within `40 u κ W` of
the distance of the lines. -/
theorem C109_distance_line (h : StdRounding u fl) (hu : u ≤ 1 / 10 ^ 11) [ext : NumpyExt ℝ] [hS : StableNumpy η]
    {p d q e : E 3} {L M : Line ℝ} (hL : @Line.new ℝ (rounded fl) (arr p) (arr d) = .ok L)
    (hM : @Line.new ℝ (rounded fl) (arr q) (arr e) = .ok M) (hc : |cosE d e| < 1 - 15 / 10 ^ 10) :
    ∃ b r, @Line.isCoplanar ℝ (rounded fl) ext none L (.line M) = .ok b ∧ @Line.distanceLine ℝ (rounded fl) ext L M = .ok r ∧
      (b = true → r = 0) ∧
      (b = false → ∃ δ, IsLeast (lineDistances p d q e) δ ∧ |r - δ| ≤ 40 * u * (√(1 - cosE d e ^ 2))⁻¹ * dist p q) := by
  have hu0 := h.nonneg
  have hε := h.eps_nonneg
  have hu100 : u ≤ 1 / 100 := by norm_num at hu; linarith
  obtain ⟨hd, rfl⟩ := line_new_rd h (by linarith) hL
  obtain ⟨he, rfl⟩ := line_new_rd h (by linarith) hM
  obtain ⟨b, hb, -⟩ := isCoplanar_rd (η := η) h p d q e (tol := none) (by simp)
  have hp := not_parallel_rd le_rfl h hu hd he hc
  obtain ⟨κ, hκ⟩ : ∃ κ, κ = (√(1 - cosE d e ^ 2))⁻¹ := ⟨_, rfl⟩
  obtain ⟨N', N, hN, hN', hNp, hκN, hκ1, hκu, eN⟩ := perp_rd le_rfl h hu hd he hc hκ
  rw [← hκ]
  obtain ⟨w, hw, cw⟩ := from_crp h p q
  obtain ⟨W, hW⟩ : ∃ W, W = dist p q := ⟨_, rfl⟩
  rw [← hW]
  have hW0 : 0 ≤ W := by rw [hW]; exact dist_nonneg
  have hWq : ‖q - p‖ = W := by rw [hW, dist_comm, dist_eq_norm]
  obtain ⟨num', hnum'⟩ : ∃ x, x = @dotv ℝ (rounded fl) (arr w) (arr N') := ⟨_, rfl⟩
  obtain ⟨num, hnum⟩ : ∃ x : ℝ, x = inner ℝ (q - p) N := ⟨_, rfl⟩
  have eD := h.dotv_abs' zero_le_one le_rfl cw (CRP.refl (eps u) N')
  rw [← hnum', hWq] at eD
  have xD : Real.exp ((1 + 0 + 1 + (3 : ℕ)) * eps u) - 1 ≤ 2 * 5 * u := by
    rw [show (1 + 0 + 1 + (3 : ℕ) : ℝ) = 5 by norm_num]; exact exp_eps_le2 h (by norm_num) (by linarith)
  have eD' : |num' - inner ℝ (q - p) N'| ≤ 10 * u * (W * ‖N'‖) :=
    eD.trans (mul_le_mul_of_nonneg_right (xD.trans (by linarith)) (by positivity))
  have enum : |num' - num| ≤ 10 * u * (W * ‖N'‖) + W * (6 * u * κ * ‖N‖) := by
    have e1 : num' - num = (num' - inner ℝ (q - p) N') + inner ℝ (q - p) (N' - N) := by
      rw [hnum, inner_sub_right]; ring
    rw [e1]
    have e5 := (abs_real_inner_le_norm (q - p) (N' - N)).trans (mul_le_mul_of_nonneg_left eN (norm_nonneg _))
    rw [hWq] at e5
    exact (abs_add_le _ _).trans (add_le_add eD' e5)
  obtain ⟨nv, hnv⟩ : ∃ x, x = @normv ℝ (rounded fl) (arr N') := ⟨_, rfl⟩
  have rn := (h.normv_rp le_rfl (CRP.refl (eps u) N')).abs_sub_le
  rw [← hnv, abs_norm, show (0 + ((3 : ℕ) + 3) / 2 : ℝ) = 3 by norm_num] at rn
  have env : |nv - ‖N'‖| ≤ 6 * u * ‖N'‖ := by
    refine rn.trans (mul_le_mul_of_nonneg_right ?_ (norm_nonneg _))
    exact (exp_eps_le2 h (by norm_num) (by linarith)).trans (by linarith)
  have hnW : |num| ≤ W * ‖N‖ := by rw [hnum, ← hWq]; exact abs_real_inner_le_norm _ _
  obtain ⟨nv0, hq⟩ := dist_const hu0 hκu hκ1 hW0 hNp (norm_nonneg _) ((abs_norm_sub_norm_le N' N).trans eN) hnW env enum
  cases b with
  | true =>
    refine ⟨true, 0, hb, ?_, fun _ => rfl, fun hf => by cases hf⟩
    simp only [Line.distanceLine, hp, ok_bind, hb, pure_ok, Bool.false_eq_true, if_false, if_true]
    rw [zero_rd]
  | false =>
    refine ⟨false, fl (|num'| / nv), hb, ?_, (fun hf => by cases hf), fun _ => ⟨|num| / ‖N‖, ?_, ?_⟩⟩
    · simp only [Line.distanceLine, hp, ok_bind, hb, pure_ok, Bool.false_eq_true, if_false, hw, hN', dot_rd, ← hnum', abs_rd,
        div_rd, Vec.norm, ← hnv]
    · have hli := not_dependent hd he hc
      obtain ⟨a, b, c1, c2⟩ : ∃ a b : ℝ, dist (p + a • d) (q - b • e) = |num| / ‖N‖ ∧
          ∀ x ∈ lineSet p d, ∀ y ∈ lineSet q e, dist (p + a • d) (q - b • e) ≤ dist x y := by
        obtain ⟨-, c1, c2⟩ := closest_points le_rfl hli (p := p) (q := q)
        refine ⟨_, _, ?_, c2⟩
        rw [c1, hnum, hN, pad3_self (q - p)]
      refine ⟨⟨_, ⟨a, rfl⟩, _, ⟨-b, rfl⟩, ?_⟩, ?_⟩
      · rw [neg_smul, ← sub_eq_add_neg]; exact c1.symm
      · rintro r ⟨x, hx, y, hy, rfl⟩
        rw [← c1]
        exact c2 x hx y hy
    · have e1 := h.err (|num'| / nv)
      have e2 : |(|num'| / nv)| ≤ W + 31 * (u * (κ * W)) := by
        have h1 : |num| / ‖N‖ ≤ W := by rw [div_le_iff₀ hNp]; exact hnW
        have h2 := abs_add_le (|num| / ‖N‖) (|num'| / nv - |num| / ‖N‖)
        rw [add_sub_cancel, abs_of_nonneg (by positivity : 0 ≤ |num| / ‖N‖)] at h2
        linarith
      exact dist_const2 hu0 hκ1 hκu hW0 e1 e2 hq

/-! ## The hypotheses are met -/

/-- Two lines in the plane at right angles, in binary64. -/
example : ∃ y : E 2, (∃ ext : NumpyExt ℝ, @Line.intersectLine ℝ (rounded (leftToRight (roundNearest 53))) ext
      ⟨arr (vec2 (1 / 10) 0), arr (vec2 1 1)⟩ ⟨arr (vec2 0 5), arr (vec2 1 (-1))⟩ true
      (@Tol.default ℝ (rounded (leftToRight (roundNearest 53)))) = .ok (arr y)) ∧
    ∃ x ∈ lineSet (vec2 (1 / 10) 0) (vec2 1 1) ∩ lineSet (vec2 0 5) (vec2 1 (-1)), dist y x ≤ 1 / 10 ^ 10 := by
  have hd : vec2 1 1 ≠ 0 := by intro h; have := congrArg (fun x : E 2 => x 0) h; simp [vec2] at this
  have he : vec2 1 (-1) ≠ 0 := by intro h; have := congrArg (fun x : E 2 => x 0) h; simp [vec2] at this
  have hc : cosE (vec2 1 1) (vec2 1 (-1)) = 0 := by rw [cosE, inner2]; simp [vec2]
  obtain ⟨ext, hl, -⟩ := exists_lawfulNumpy fun _ x => x
  have hS := @StableNumpy.of_lawful ext hl
  obtain ⟨-, h2⟩ := C109_plane (η := 0) le_rfl std53 (by norm_num)
    ((C73_constructors std53 (by norm_num) (vec2 (1 / 10) 0) (vec2 1 1)).1 hd).1
    ((C73_constructors std53 (by norm_num) (vec2 0 5) (vec2 1 (-1))).1 he).1
  obtain ⟨-, h3⟩ := h2 (by rw [hc]; norm_num)
  obtain ⟨y, h4, x, h5, h6⟩ := h3 true
  refine ⟨y, ⟨ext, h4⟩, x, h5, h6.trans ?_⟩
  have n1 : ‖vec2 (1 / 10) 0‖ ≤ 1 := by
    refine le_of_sq_le_sq ?_ (by norm_num)
    rw [norm_sq2]; simp only [vec2, PiLp.toLp_apply, Matrix.cons_val]; norm_num
  have n2 : dist (vec2 (1 / 10) 0) (vec2 0 5) ≤ 6 := by
    rw [dist_eq_norm]
    refine le_of_sq_le_sq ?_ (by norm_num)
    rw [norm_sq2]; simp only [vec2, PiLp.sub_apply, PiLp.toLp_apply, Matrix.cons_val]; norm_num
  rw [hc]
  norm_num
  norm_num at n1
  linarith

/-- Two skew lines in space: the distance of the lines along `x` through the origin and along `y` through `(0, 0, 3)`. -/
example : ∃ (ext : NumpyExt ℝ) (b : Bool) (r : ℝ),
    @Line.isCoplanar ℝ (rounded (leftToRight (roundNearest 53))) ext none ⟨arr (vec3 0 0 0), arr (vec3 1 0 0)⟩
      (.line ⟨arr (vec3 0 0 3), arr (vec3 0 1 0)⟩) = .ok b ∧
    @Line.distanceLine ℝ (rounded (leftToRight (roundNearest 53))) ext ⟨arr (vec3 0 0 0), arr (vec3 1 0 0)⟩
      ⟨arr (vec3 0 0 3), arr (vec3 0 1 0)⟩ = .ok r := by
  have hd : vec3 1 0 0 ≠ 0 := by intro h; have := congrArg (fun x : E 3 => x 0) h; simp [vec3] at this
  have he : vec3 0 1 0 ≠ 0 := by intro h; have := congrArg (fun x : E 3 => x 1) h; simp [vec3] at this
  have hc : cosE (vec3 1 0 0) (vec3 0 1 0) = 0 := by rw [cosE, inner3]; simp [vec3]
  obtain ⟨ext, hl, -⟩ := exists_lawfulNumpy fun _ x => x
  have hS := @StableNumpy.of_lawful ext hl
  obtain ⟨b, r, h1, h2, -⟩ := C109_distance_line (η := 0) std53 (by norm_num)
    ((C73_constructors std53 (by norm_num) (vec3 0 0 0) (vec3 1 0 0)).1 hd).1
    ((C73_constructors std53 (by norm_num) (vec3 0 0 3) (vec3 0 1 0)).1 he).1 (by rw [hc]; norm_num)
  exact ⟨ext, b, r, h1, h2⟩

end SkSpatial
