import Verif.Props.Circle2
import Verif.Props.BestFit
import Verif.Model.Cylinder
import Verif.Spec.Cylinder
import Mathlib.Analysis.Convex.Segment
/-! # C50 - C53: cylinders -/

namespace SkSpatial

theorem Cylinder.new_arr (p : E 3) {a : E 3} (ha : a ≠ 0) {r : ℝ} (hr : 0 < r) :
    Cylinder.new (arr p) (arr a) r = .ok ⟨arr p, arr a, r⟩ := by
  simp [Cylinder.new, ha, hr]

theorem Cylinder.new_ok {p a : E 3} {r : ℝ} {C : Cylinder ℝ} (h : Cylinder.new (arr p) (arr a) r = .ok C) :
    a ≠ 0 ∧ 0 < r ∧ C = ⟨arr p, arr a, r⟩ := by
  by_cases ha : a = 0
  · simp [Cylinder.new, ha] at h
  · by_cases hr : 0 < r
    · rw [Cylinder.new_arr p ha hr] at h; cases h; exact ⟨ha, hr, rfl⟩
    · simp [Cylinder.new, ha, hr] at h

/-! ### Height and squared distance to the axis -/

/-- The squared distance to the axis. -/
noncomputable def rad2 (p a x : E 3) : ℝ := ‖x - p‖ ^ 2 - psignedE p a x ^ 2

theorem cyl_decomp (p : E 3) {a : E 3} (ha : a ≠ 0) (x : E 3) : ∃ w : E 3, inner ℝ w a = (0 : ℝ) ∧
    ‖w‖ ^ 2 = rad2 p a x ∧ x = p + (psignedE p a x / ‖a‖) • a + w := by
  have h : ‖a‖ ≠ 0 := norm_ne_zero_iff.mpr ha
  obtain ⟨s, hs⟩ : ∃ s, s = (inner ℝ (x - p) a : ℝ) := ⟨_, rfl⟩
  have hps : psignedE p a x = ‖a‖⁻¹ * s := by rw [psignedE, real_inner_smul_right, hs]
  refine ⟨x - p - (psignedE p a x / ‖a‖) • a, ?_, ?_, ?_⟩
  · rw [inner_sub_left, real_inner_smul_left, real_inner_self_eq_norm_sq, ← hs, hps]
    field_simp; ring
  · rw [rad2, norm_sub_sq_real, real_inner_smul_right, norm_smul, ← hs, hps, mul_pow, Real.norm_eq_abs, sq_abs]
    field_simp; ring
  · abel

theorem cyl_coords (p : E 3) {a : E 3} (ha : a ≠ 0) {w : E 3} (hw : inner ℝ w a = (0 : ℝ)) (t : ℝ) :
    psignedE p a (p + t • a + w) = t * ‖a‖ ∧ rad2 p a (p + t • a + w) = ‖w‖ ^ 2 := by
  have h : ‖a‖ ≠ 0 := norm_ne_zero_iff.mpr ha
  have e : p + t • a + w - p = t • a + w := by abel
  have h1 : psignedE p a (p + t • a + w) = t * ‖a‖ := by
    rw [psignedE, e, real_inner_smul_right, inner_add_left, hw, real_inner_smul_left, real_inner_self_eq_norm_sq]
    field_simp; ring
  refine ⟨h1, ?_⟩
  have hw' : (inner ℝ a w : ℝ) = 0 := by rw [real_inner_comm]; exact hw
  rw [rad2, h1, e, norm_add_sq_real, real_inner_smul_left, hw', norm_smul, mul_pow, Real.norm_eq_abs, sq_abs]
  ring

theorem mem_solidCyl {p a x : E 3} (ha : a ≠ 0) {r : ℝ} (hr : 0 < r) : x ∈ solidCyl p a r ↔
    0 ≤ psignedE p a x ∧ psignedE p a x ≤ ‖a‖ ∧ rad2 p a x ≤ r ^ 2 := by
  have h : 0 < ‖a‖ := norm_pos_iff.mpr ha
  constructor
  · rintro ⟨t, w, h0, h1, hw, hn, rfl⟩
    obtain ⟨e1, e2⟩ := cyl_coords p ha hw t
    rw [e1, e2]
    exact ⟨by positivity, by nlinarith, pow_le_pow_left₀ (norm_nonneg w) hn 2⟩
  · rintro ⟨h0, h1, h2⟩
    obtain ⟨w, hw, hn, hx⟩ := cyl_decomp p ha x
    refine ⟨_, w, by positivity, (div_le_one h).mpr h1, hw, ?_, hx⟩
    rw [← hn] at h2
    exact (pow_le_pow_iff_left₀ (norm_nonneg w) hr.le two_ne_zero).mp h2

theorem mem_infCyl {p a x : E 3} (ha : a ≠ 0) {r : ℝ} (hr : 0 < r) : x ∈ infCyl p a r ↔ rad2 p a x = r ^ 2 := by
  constructor
  · rintro ⟨t, w, hw, hn, rfl⟩
    rw [(cyl_coords p ha hw t).2, hn]
  · intro h2
    obtain ⟨w, hw, hn, hx⟩ := cyl_decomp p ha x
    refine ⟨_, w, hw, ?_, hx⟩
    rw [← hn] at h2
    exact (pow_left_inj₀ (norm_nonneg w) hr.le two_ne_zero).mp h2

theorem dist_footE_rad2 (p : E 3) {a : E 3} (ha : a ≠ 0) (x : E 3) : dist x (footE p a x) ^ 2 = rad2 p a x := by
  have h : ‖a‖ ≠ 0 := norm_ne_zero_iff.mpr ha
  rw [dist_footE_sq p ha, rad2, psignedE, real_inner_smul_right, mul_pow, real_inner_comm]
  field_simp

open Classical in
theorem Cylinder.betweenCapPlanes_arr (p : E 3) {a : E 3} (ha : a ≠ 0) (r : ℝ) (x : E 3) :
    Cylinder.betweenCapPlanes ⟨arr p, arr a, r⟩ (arr x) =
      .ok (decide (0 ≤ psignedE p a x ∧ psignedE p a x ≤ ‖a‖)) := by
  simp [Cylinder.betweenCapPlanes, Plane.new_arr p ha, Plane.distancePointSigned_arr p x ha, Cylinder.length]

open Classical in
/-- C50: `cylinder.is_point_within(point)` decides membership in the solid cylinder. -/
theorem C50_is_point_within {p a : E 3} {r : ℝ} {C : Cylinder ℝ} (hC : Cylinder.new (arr p) (arr a) r = .ok C) (x : E 3) :
    C.isPointWithin (arr x) = .ok (decide (x ∈ solidCyl p a r)) := by
  obtain ⟨ha, hr, rfl⟩ := Cylinder.new_ok hC
  have h1 : dist x (footE p a x) ≤ r ↔ rad2 p a x ≤ r ^ 2 := by
    rw [← dist_footE_rad2 p ha x]
    exact (pow_le_pow_iff_left₀ dist_nonneg hr.le two_ne_zero).symm
  simp only [Cylinder.isPointWithin, Line.new_arr p ha, ok_bind, Line.distancePoint_arr,
    Cylinder.betweenCapPlanes_arr p ha r x, le_real, mem_solidCyl ha hr, pure_ok, h1]
  rw [← Bool.decide_and]
  congr 2
  rw [eq_iff_iff]; tauto

example : vec3 0 0 2 ≠ 0 := by
  intro h; have := congrFun (congrArg WithLp.ofLp h) 2; simp [vec3] at this

/-- The dimension requirement of the constructor, for a valid radius and non-zero vector: C04 has the rest. -/
example (p : E 3) : Cylinder.new (arr p) (arr (vec3 0 0 2)) (1 : ℝ) = .ok ⟨arr p, arr (vec3 0 0 2), 1⟩ := by
  apply Cylinder.new_arr _ _ (by norm_num)
  intro h; have := congrFun (congrArg WithLp.ofLp h) 2; simp [vec3] at this

/-! ## C53 -/

theorem quad_root {a b c : ℝ} (h : a ≠ 0) (hc : 0 ≤ b ^ 2 - 4 * a * c) : ∃ z : ℝ, a * z ^ 2 + b * z + c = 0 := by
  have hs := Real.sq_sqrt hc
  obtain ⟨s, hsdef⟩ : ∃ s, s = Real.sqrt (b ^ 2 - 4 * a * c) := ⟨_, rfl⟩
  rw [← hsdef] at hs
  refine ⟨(-b + s) / (2 * a), ?_⟩
  field_simp
  linear_combination hs

/-- C53: the roots of a quadratic.  Without rounding digits (`None`, and also `0`), for `a ≠ 0` and a
non-negative discriminant the two values are exactly the real roots with their multiplicity; the first is the
smaller one iff `a > 0`. -/
theorem C53_solve_quadratic (a b c : ℝ) {nd : Option Int} (hnd : nd = none ∨ nd = some 0) :
    (a = 0 → ∃ msg, solveQuadratic a b c nd = .error (.valueError msg)) ∧
    (a ≠ 0 → (¬ ∃ z : ℝ, a * z ^ 2 + b * z + c = 0) → ∃ msg, solveQuadratic a b c nd = .error (.valueError msg)) ∧
    (a ≠ 0 → (∃ z : ℝ, a * z ^ 2 + b * z + c = 0) → ∃ x y : ℝ, solveQuadratic a b c nd = .ok (x, y) ∧
      (∀ z : ℝ, a * z ^ 2 + b * z + c = a * ((z - x) * (z - y))) ∧
      (∀ z : ℝ, a * z ^ 2 + b * z + c = 0 ↔ z = x ∨ z = y) ∧ (0 < a → x ≤ y) ∧ (a < 0 → y ≤ x)) := by
  have hval : solveQuadratic a b c nd = if a = 0 then .error (.valueError "The coefficient `a` must be non-zero.")
      else if b ^ 2 - 4 * a * c < 0 then .error (.valueError "The discriminant must not be negative.")
      else .ok ((-b - Real.sqrt (b ^ 2 - 4 * a * c)) / (2 * a), (-b + Real.sqrt (b ^ 2 - 4 * a * c)) / (2 * a)) := by
    have hr : solveQuadratic a b c nd = solveQuadratic a b c none := by
      rcases hnd with rfl | rfl
      · rfl
      · simp [solveQuadratic]
    rw [hr]
    simp only [solveQuadratic, id]
    simp only [eq_real, zero_real, decide_eq_true_eq, sub_real, sq_real, mul_real, ofInt_real, lt_real, mathSqrt, neg_real,
      add_real, two_real, div_real, sqrt_real]
    push_cast
    by_cases h1 : a = 0
    · simp [h1]
    · simp only [h1, if_false]
      split_ifs with h2
      · rfl
      · simp [sub_eq_add_neg]
  refine ⟨?_, ?_, ?_⟩
  · intro h; exact ⟨_, by rw [hval, if_pos h]⟩
  · intro h hno
    have hneg : b ^ 2 - 4 * a * c < 0 := by
      by_contra hc
      push Not at hc
      apply hno
      exact quad_root h hc
    exact ⟨_, by rw [hval, if_neg h, if_pos hneg]⟩
  · rintro h ⟨z0, hz0⟩
    have hdisc : 0 ≤ b ^ 2 - 4 * a * c := by
      have : b ^ 2 - 4 * a * c = (2 * a * z0 + b) ^ 2 := by linear_combination (-4 * a) * hz0
      rw [this]; positivity
    have hs := Real.sq_sqrt hdisc
    have hs0 := Real.sqrt_nonneg (b ^ 2 - 4 * a * c)
    obtain ⟨s, hsdef⟩ : ∃ s, s = Real.sqrt (b ^ 2 - 4 * a * c) := ⟨_, rfl⟩
    rw [← hsdef] at hs hs0
    have hfac : ∀ z : ℝ, a * z ^ 2 + b * z + c = a * ((z - (-b - s) / (2 * a)) * (z - (-b + s) / (2 * a))) := by
      intro z
      field_simp
      linear_combination hs
    refine ⟨_, _, by rw [hval, if_neg h, if_neg (not_lt.mpr hdisc)], ?_, ?_, ?_, ?_⟩
    · rw [← hsdef]; exact hfac
    · intro z
      rw [← hsdef, hfac z, mul_eq_zero, or_iff_right h, mul_eq_zero, sub_eq_zero, sub_eq_zero]
    · intro ha
      rw [← hsdef]
      exact div_le_div_of_nonneg_right (by linarith) (by linarith)
    · intro ha
      rw [← hsdef]
      exact div_le_div_of_nonpos_of_le (by linarith) (by linarith)

/-- C53: with a non-zero number of digits the coefficients are rounded first. -/
theorem C53_solve_quadratic_digits (a b c : ℝ) (k : Int) (hk : k ≠ 0) :
    solveQuadratic a b c (some k) = solveQuadratic (roundDigits k a) (roundDigits k b) (roundDigits k c) none := by
  simp [solveQuadratic, hk]

/-- The three cases of C53 occur. -/
example : (∃ z : ℝ, 1 * z ^ 2 + 0 * z + (-1) = 0) ∧ ¬ (∃ z : ℝ, 1 * z ^ 2 + 0 * z + 1 = 0) :=
  ⟨⟨1, by norm_num⟩, by rintro ⟨z, hz⟩; nlinarith [sq_nonneg z]⟩

/-! ## C51 -/

theorem lin_coords (p : E 3) {a : E 3} (ha : a ≠ 0) (q u : E 3) (hu : ‖u‖ = 1) (t : ℝ) :
    psignedE p a (q + t • u) = psignedE p a q + t * inner ℝ u (‖a‖⁻¹ • a) ∧
    rad2 p a (q + t • u) = ‖u - (inner ℝ u (‖a‖⁻¹ • a) : ℝ) • ‖a‖⁻¹ • a‖ ^ 2 * t ^ 2 +
      2 * inner ℝ (u - (inner ℝ u (‖a‖⁻¹ • a) : ℝ) • ‖a‖⁻¹ • a)
        (q - p - (inner ℝ (q - p) (‖a‖⁻¹ • a) : ℝ) • ‖a‖⁻¹ • a) * t +
      ‖q - p - (inner ℝ (q - p) (‖a‖⁻¹ • a) : ℝ) • ‖a‖⁻¹ • a‖ ^ 2 := by
  have hn := norm_unit ha
  obtain ⟨v, hv⟩ : ∃ v, v = ‖a‖⁻¹ • a := ⟨_, rfl⟩
  rw [← hv] at hn
  have e : q + t • u - p = (q - p) + t • u := by abel
  have h1 : psignedE p a (q + t • u) = psignedE p a q + t * inner ℝ u (‖a‖⁻¹ • a) := by
    rw [psignedE, psignedE, e, inner_add_left, real_inner_smul_left]
  refine ⟨h1, ?_⟩
  rw [rad2, h1, e, psignedE, ← hv]
  obtain ⟨w, hw⟩ : ∃ w, w = q - p := ⟨_, rfl⟩
  rw [← hw]
  simp only [norm_add_sq_real, norm_sub_sq_real, norm_smul, inner_sub_left, inner_sub_right, real_inner_smul_left,
    real_inner_smul_right, real_inner_self_eq_norm_sq, hn, mul_pow, Real.norm_eq_abs, sq_abs, hu]
  rw [real_inner_comm w v, real_inner_comm w u]
  ring

/-- What `_intersect_line_with_infinite_cylinder` computes. -/
theorem Cylinder.intersectInfinite_arr (p : E 3) {a : E 3} (ha : a ≠ 0) {r : ℝ} (q : E 3) {d : E 3} (hd : d ≠ 0)
    {nd : Option Int} (hnd : nd = none ∨ nd = some 0) :
    (¬ LinearIndependent ℝ ![a, d] →
      Cylinder.intersectInfinite ⟨arr p, arr a, r⟩ ⟨arr q, arr d⟩ nd =
        .error (.valueError "The line does not intersect the cylinder.") ∧
      ∀ t : ℝ, rad2 p a (q + t • ‖d‖⁻¹ • d) = rad2 p a q) ∧
    (LinearIndependent ℝ ![a, d] → (∀ t : ℝ, r ^ 2 < rad2 p a (q + t • ‖d‖⁻¹ • d)) →
      Cylinder.intersectInfinite ⟨arr p, arr a, r⟩ ⟨arr q, arr d⟩ nd =
        .error (.valueError "The line does not intersect the cylinder.")) ∧
    (LinearIndependent ℝ ![a, d] → (∃ t : ℝ, rad2 p a (q + t • ‖d‖⁻¹ • d) ≤ r ^ 2) → ∃ t1 t2 A : ℝ, t1 ≤ t2 ∧ 0 < A ∧
      Cylinder.intersectInfinite ⟨arr p, arr a, r⟩ ⟨arr q, arr d⟩ nd =
        .ok (arr (q + t1 • ‖d‖⁻¹ • d), arr (q + t2 • ‖d‖⁻¹ • d)) ∧
      ∀ t : ℝ, rad2 p a (q + t • ‖d‖⁻¹ • d) - r ^ 2 = A * ((t - t1) * (t - t2))) := by
  have hu := norm_unit hd
  have hv := norm_unit ha
  have hna : ‖a‖ ≠ 0 := norm_ne_zero_iff.mpr ha
  have hnd' : ‖d‖ ≠ 0 := norm_ne_zero_iff.mpr hd
  have hlin := lin_coords p ha q (‖d‖⁻¹ • d) hu
  obtain ⟨u, hudef⟩ : ∃ u, u = ‖d‖⁻¹ • d := ⟨_, rfl⟩
  have hunit : Vec.unit (arr d) = .ok (arr u) := by rw [unit_arr hd, hudef]
  rw [← hudef] at hlin hu
  obtain ⟨v, hvdef⟩ : ∃ v, v = ‖a‖⁻¹ • a := ⟨_, rfl⟩
  have hunit' : Vec.unit (arr a) = .ok (arr v) := by rw [unit_arr ha, hvdef]
  rw [← hvdef] at hlin hv
  obtain ⟨x, hx⟩ : ∃ x, x = u - (inner ℝ u v : ℝ) • v := ⟨_, rfl⟩
  obtain ⟨y, hy⟩ : ∃ y, y = q - p - (inner ℝ (q - p) v : ℝ) • v := ⟨_, rfl⟩
  rw [← hx, ← hy] at hlin
  have hval : Cylinder.intersectInfinite ⟨arr p, arr a, r⟩ ⟨arr q, arr d⟩ nd =
      (match solveQuadratic (‖x‖ ^ 2) (2 * inner ℝ x y) (‖y‖ ^ 2 - r ^ 2) nd with
        | .ok X => .ok (arr (q + X.1 • u), arr (q + X.2 • u))
        | .error (.valueError _) => .error (.valueError "The line does not intersect the cylinder.")
        | .error e => .error e) := by
    simp only [Cylinder.intersectInfinite, wrapped_real, hunit, hunit', fromPoints_arr, ok_bind, dot_arr, smul_arr, vsub_arr, ← hx, ← hy,
      norm_arr, sq_real, two_real, mul_real, sub_real]
    cases solveQuadratic (‖x‖ ^ 2) (2 * inner ℝ x y) (‖y‖ ^ 2 - r ^ 2) nd with
    | error e => cases e <;> rfl
    | ok X => simp
  rw [← hudef]
  have hli : LinearIndependent ℝ ![a, d] ↔ x ≠ 0 := by
    rw [LinearIndependent.pair_iff' ha]
    constructor
    · intro h hx0
      have h1 : u = (inner ℝ u v : ℝ) • v := by rw [hx] at hx0; exact sub_eq_zero.mp hx0
      obtain ⟨k, hk⟩ : ∃ k, k = (inner ℝ u v : ℝ) := ⟨_, rfl⟩
      rw [← hk] at h1
      apply h (‖d‖ * (k * ‖a‖⁻¹))
      have h2 : d = ‖d‖ • u := by rw [hudef, smul_smul, mul_inv_cancel₀ hnd', one_smul]
      rw [h1, hvdef] at h2
      rw [← smul_smul, ← smul_smul]
      exact h2.symm
    · intro hx0 s hs
      apply hx0
      have : u = (‖d‖⁻¹ * s * ‖a‖) • v := by
        rw [hudef, hvdef, ← hs, smul_smul, smul_smul]; congr 1; field_simp
      have h2 : (inner ℝ u v : ℝ) = ‖d‖⁻¹ * s * ‖a‖ := by
        rw [this, real_inner_smul_left, real_inner_self_eq_norm_sq, hv]; ring
      rw [hx, h2, ← this, sub_self]
  have hform : ∀ t : ℝ, rad2 p a (q + t • u) = ‖x‖ ^ 2 * t ^ 2 + 2 * inner ℝ x y * t + ‖y‖ ^ 2 := fun t => (hlin t).2
  obtain ⟨hq1, hq2, hq3⟩ := C53_solve_quadratic (‖x‖ ^ 2) (2 * inner ℝ x y) (‖y‖ ^ 2 - r ^ 2) hnd
  refine ⟨?_, ?_, ?_⟩
  · intro h
    have hx0 : x = 0 := by
      by_contra hc; exact h (hli.mpr hc)
    obtain ⟨msg, hmsg⟩ := hq1 (by simp [hx0])
    refine ⟨by rw [hval, hmsg], fun t => ?_⟩
    have h0 := hform 0
    rw [zero_smul, add_zero] at h0
    rw [h0, hform t, hx0]; simp
  · intro h hlt
    have hx0 : ‖x‖ ^ 2 ≠ 0 := by
      have := norm_ne_zero_iff.mpr (hli.mp h); positivity
    obtain ⟨msg, hmsg⟩ := hq2 hx0 (by
      rintro ⟨z, hz⟩
      have := hlt z
      rw [hform z] at this
      linarith)
    rw [hval, hmsg]
  · rintro h ⟨t0, ht0⟩
    have hx0 : 0 < ‖x‖ ^ 2 := by
      have := norm_pos_iff.mpr (hli.mp h); positivity
    obtain ⟨t1, t2, h1, h2, -, h3, -⟩ := hq3 hx0.ne' (by
      obtain ⟨A, hA⟩ : ∃ A, A = ‖x‖ ^ 2 := ⟨_, rfl⟩
      obtain ⟨B, hB⟩ : ∃ B, B = 2 * (inner ℝ x y : ℝ) := ⟨_, rfl⟩
      obtain ⟨c, hc⟩ : ∃ c, c = ‖y‖ ^ 2 - r ^ 2 := ⟨_, rfl⟩
      have h0 : A * t0 ^ 2 + B * t0 + c ≤ 0 := by
        rw [hform t0] at ht0; rw [hA, hB, hc]; linarith
      rw [← hA, ← hB, ← hc]
      rw [← hA] at hx0
      have hdisc : 0 ≤ B ^ 2 - 4 * A * c := by
        nlinarith [sq_nonneg (2 * A * t0 + B)]
      exact quad_root hx0.ne' hdisc)
    refine ⟨t1, t2, ‖x‖ ^ 2, h3 hx0, hx0, by rw [hval, h1], fun t => ?_⟩
    rw [← h2 t, hform t]; ring

theorem rad2_line_pos (p a q u : E 3) {r : ℝ}
    (h : ¬ ∃ t : ℝ, rad2 p a (q + t • u) ≤ r ^ 2) : ∀ t : ℝ, r ^ 2 < rad2 p a (q + t • u) := by
  intro t; by_contra hc; exact h ⟨t, not_lt.mp hc⟩

/-- C51: `cylinder.intersect_line(line)` with the default `infinite=True` and no rounding. -/
theorem C51_infinite_cylinder {p a q d : E 3} {r : ℝ} {C : Cylinder ℝ} {L : Line ℝ}
    (hC : Cylinder.new (arr p) (arr a) r = .ok C) (hL : Line.new (arr q) (arr d) = .ok L)
    {nd : Option Int} (hnd : nd = none ∨ nd = some 0) :
    (¬ LinearIndependent ℝ ![a, d] → ∃ msg, C.intersectLine L nd true = .error (.valueError msg)) ∧
    (infCyl p a r ∩ lineSet q d = ∅ → ∃ msg, C.intersectLine L nd true = .error (.valueError msg)) ∧
    (LinearIndependent ℝ ![a, d] → (infCyl p a r ∩ lineSet q d).Nonempty → ∃ x y : E 3,
      C.intersectLine L nd true = .ok (arr x, arr y) ∧ infCyl p a r ∩ lineSet q d = {x, y} ∧
      ∃ t : ℝ, 0 ≤ t ∧ y = x + t • d) := by
  obtain ⟨ha, hr, rfl⟩ := Cylinder.new_ok hC
  obtain ⟨-, hd, rfl⟩ := Line.new_ok hL
  have hu := norm_unit hd
  have hline := lineSet_unit q hd
  have hint : Cylinder.intersectLine ⟨arr p, arr a, r⟩ ⟨arr q, arr d⟩ nd true =
      Cylinder.intersectInfinite ⟨arr p, arr a, r⟩ ⟨arr q, arr d⟩ nd := by
    simp [Cylinder.intersectLine, Line.dimension]
  obtain ⟨h1, h2, h3⟩ := Cylinder.intersectInfinite_arr p ha (r := r) q hd hnd
  have hset : ∀ t1 t2 A : ℝ, 0 < A → (∀ t : ℝ, rad2 p a (q + t • ‖d‖⁻¹ • d) - r ^ 2 = A * ((t - t1) * (t - t2))) →
      infCyl p a r ∩ lineSet q d = {q + t1 • ‖d‖⁻¹ • d, q + t2 • ‖d‖⁻¹ • d} := by
    intro t1 t2 A hA hf
    ext z
    rw [hline, Set.mem_inter_iff, mem_infCyl ha hr, Set.mem_insert_iff, Set.mem_singleton_iff]
    constructor
    · rintro ⟨hz, t, rfl⟩
      have := hf t
      rw [hz, sub_self, zero_eq_mul, or_iff_right hA.ne', mul_eq_zero, sub_eq_zero, sub_eq_zero] at this
      rcases this with rfl | rfl
      · exact Or.inl rfl
      · exact Or.inr rfl
    · rintro (rfl | rfl)
      · exact ⟨by have := hf t1; simp at this; linarith, _, rfl⟩
      · exact ⟨by have := hf t2; simp at this; linarith, _, rfl⟩
  refine ⟨fun h => ⟨_, hint.trans (h1 h).1⟩, ?_, ?_⟩
  · intro hempty
    by_cases hli : LinearIndependent ℝ ![a, d]
    · by_cases he : ∃ t : ℝ, rad2 p a (q + t • ‖d‖⁻¹ • d) ≤ r ^ 2
      · obtain ⟨t1, t2, A, -, hA, -, hf⟩ := h3 hli he
        rw [hset t1 t2 A hA hf] at hempty
        exact absurd hempty (Set.Nonempty.ne_empty (Set.insert_nonempty _ _))
      · exact ⟨_, hint.trans (h2 hli (rad2_line_pos p a q _ he))⟩
    · exact ⟨_, hint.trans (h1 hli).1⟩
  · rintro hli ⟨z, hz1, hz2⟩
    rw [hline] at hz2
    obtain ⟨t, rfl⟩ := hz2
    obtain ⟨t1, t2, A, hle, hA, hv, hf⟩ := h3 hli ⟨t, ((mem_infCyl ha hr).mp hz1).le⟩
    refine ⟨_, _, hint.trans hv, hset t1 t2 A hA hf, (t2 - t1) * ‖d‖⁻¹, ?_, ?_⟩
    · have := sub_nonneg.mpr hle; positivity
    · rw [← smul_smul, sub_smul]; abel

/-- C51: a line that is not 3D is rejected. -/
theorem C51_dimension {n : ℕ} (hn : n ≠ 3) {q d : E n} {L : Line ℝ} (hL : Line.new (arr q) (arr d) = .ok L)
    (C : Cylinder ℝ) (nd : Option Int) (inf : Bool) : ∃ msg, C.intersectLine L nd inf = .error (.valueError msg) := by
  obtain ⟨-, hd, rfl⟩ := Line.new_ok hL
  exact ⟨_, by simp [Cylinder.intersectLine, Line.dimension, hn]; rfl⟩

/-- A line through the unit cylinder around the z axis. -/
example : LinearIndependent ℝ ![vec3 0 0 2, vec3 1 0 0] ∧
    (infCyl (vec3 0 0 0) (vec3 0 0 2) 1 ∩ lineSet (vec3 0 0 1) (vec3 1 0 0)).Nonempty := by
  constructor
  · rw [LinearIndependent.pair_iff]
    intro s t h
    have h0 := congrFun (congrArg WithLp.ofLp h) 0
    have h2 := congrFun (congrArg WithLp.ofLp h) 2
    simp [vec3] at h0 h2
    exact ⟨h2, h0⟩
  · refine ⟨vec3 1 0 1, ⟨1 / 2, vec3 1 0 0, ?_, ?_, ?_⟩, 1, ?_⟩
    · simp [inner3, vec3]
    · have h2 : ‖vec3 1 0 0‖ ^ 2 = 1 := by rw [norm_sq3]; simp [vec3]
      have h0 := norm_nonneg (vec3 1 0 0)
      nlinarith
    · ext i; fin_cases i <;> simp [vec3]
    · ext i; fin_cases i <;> simp [vec3]

/-! ## C52 -/

theorem segment_line (q u : E 3) (s t : ℝ) :
    segment ℝ (q + s • u) (q + t • u) = {z | ∃ k ∈ Set.uIcc s t, z = q + k • u} := by
  have h := image_segment ℝ (AffineMap.lineMap (k := ℝ) q (q + u)) s t
  have e : ∀ k : ℝ, AffineMap.lineMap (k := ℝ) q (q + u) k = q + k • u := by
    intro k; simp [AffineMap.lineMap_apply, add_comm]
  rw [e, e] at h
  rw [← h, segment_eq_uIcc]
  ext z
  simp only [Set.mem_image, e, Set.mem_ofPred_eq]
  constructor
  · rintro ⟨k, hk, rfl⟩; exact ⟨k, hk, rfl⟩
  · rintro ⟨k, hk, rfl⟩; exact ⟨k, hk, rfl⟩

open Classical in
/-- What `_intersect_cap` computes for the cap plane at the height `τ` times the length. -/
theorem Cylinder.intersectCap_arr (p : E 3) {a : E 3} (ha : a ≠ 0) {r : ℝ} (hr : 0 < r) (q : E 3) {d : E 3} (hd : d ≠ 0)
    (τ : ℝ) : ((inner ℝ (‖d‖⁻¹ • d) (‖a‖⁻¹ • a) : ℝ) = 0 →
      Cylinder.intersectCap ⟨arr p, arr a, r⟩ ⟨arr q, arr d⟩ ⟨arr (p + τ • a), arr a⟩ = .ok none) ∧
    ((inner ℝ (‖d‖⁻¹ • d) (‖a‖⁻¹ • a) : ℝ) ≠ 0 → ∃ s : ℝ, psignedE p a (q + s • ‖d‖⁻¹ • d) = τ * ‖a‖ ∧
      Cylinder.intersectCap ⟨arr p, arr a, r⟩ ⟨arr q, arr d⟩ ⟨arr (p + τ • a), arr a⟩ =
        .ok (if rad2 p a (q + s • ‖d‖⁻¹ • d) ≤ r ^ 2 then some (arr (q + s • ‖d‖⁻¹ • d)) else none)) := by
  have hna : ‖a‖ ≠ 0 := norm_ne_zero_iff.mpr ha
  have hnd' : ‖d‖ ≠ 0 := norm_ne_zero_iff.mpr hd
  have hz : (inner ℝ (‖d‖⁻¹ • d) (‖a‖⁻¹ • a) : ℝ) = 0 ↔ (inner ℝ a d : ℝ) = 0 := by
    rw [real_inner_smul_left, real_inner_smul_right, real_inner_comm]
    simp [hna, hnd']
  rw [Ne, hz]
  constructor
  · intro h
    simp [Cylinder.intersectCap, Plane.intersectLine, h]
  · intro h
    obtain ⟨k, hk⟩ : ∃ k, k = -(inner ℝ a (q - (p + τ • a)) : ℝ) / (inner ℝ a d : ℝ) := ⟨_, rfl⟩
    have hx : Plane.intersectLine Tol.default ⟨arr (p + τ • a), arr a⟩ ⟨arr q, arr d⟩ = .ok (arr (q + k • d)) := by
      simp [Plane.intersectLine, h, hk]
    have hs : (k * ‖d‖) • ‖d‖⁻¹ • d = k • d := by
      rw [smul_smul, mul_assoc, mul_inv_cancel₀ hnd', mul_one]
    refine ⟨k * ‖d‖, ?_, ?_⟩
    · rw [hs, psignedE, real_inner_smul_right, real_inner_comm]
      have e : q + k • d - p = (q - (p + τ • a)) + τ • a + k • d := by abel
      rw [e, inner_add_right, inner_add_right, real_inner_smul_right, real_inner_smul_right, real_inner_self_eq_norm_sq, hk]
      field_simp
      ring
    · rw [hs]
      have hp : psignedE p a (q + k • d) = τ * ‖a‖ := by
        rw [psignedE, real_inner_smul_right, real_inner_comm]
        have e : q + k • d - p = (q - (p + τ • a)) + τ • a + k • d := by abel
        rw [e, inner_add_right, inner_add_right, real_inner_smul_right, real_inner_smul_right, real_inner_self_eq_norm_sq, hk]
        field_simp
        ring
      have hrad : dist (q + k • d) (p + τ • a) ^ 2 = rad2 p a (q + k • d) := by
        obtain ⟨w, hw, hn, hx'⟩ := cyl_decomp p ha (q + k • d)
        rw [hp, mul_div_assoc, div_self hna, mul_one] at hx'
        rw [← hn, dist_eq_norm]
        congr 2
        rw [hx']; abel
      have hle : dist (q + k • d) (p + τ • a) ≤ r ↔ rad2 p a (q + k • d) ≤ r ^ 2 := by
        rw [← hrad]; exact (pow_le_pow_iff_left₀ dist_nonneg hr.le two_ne_zero).symm
      simp only [Cylinder.intersectCap, wrapped_real, hx, distancePoint_arr, ok_bind, le_real, decide_eq_true_eq, hle, pure_ok]

theorem prod_nonpos {t1 t2 t : ℝ} (h : t1 ≤ t2) : (t - t1) * (t - t2) ≤ 0 ↔ t1 ≤ t ∧ t ≤ t2 := by
  constructor
  · intro h1
    constructor
    · by_contra hc; push Not at hc; nlinarith
    · by_contra hc; push Not at hc; nlinarith
  · rintro ⟨h1, h2⟩; nlinarith

theorem slab {h0 h1 l sb st : ℝ} (hlen : 0 < l) (hz : h1 ≠ 0) (hsb : h0 + sb * h1 = 0) (hst : h0 + st * h1 = l) :
    ∀ k, (0 ≤ h0 + k * h1 ∧ h0 + k * h1 ≤ l) ↔ k ∈ Set.uIcc sb st := by
  intro k
  rw [Set.mem_uIcc]
  have e1 : h0 + k * h1 = (k - sb) * h1 := by linear_combination hsb
  have e2 : l - (h0 + k * h1) = (st - k) * h1 := by linear_combination -hst
  rw [← sub_nonneg (b := h0 + k * h1), e2, e1]
  rcases lt_or_gt_of_ne hz with hneg | hpos
  · have hlt : st < sb := by
      by_contra hcon; push Not at hcon; nlinarith
    constructor
    · rintro ⟨h2, h3⟩
      right
      exact ⟨by by_contra hcon; push Not at hcon; nlinarith, by by_contra hcon; push Not at hcon; nlinarith⟩
    · rintro (⟨h2, h3⟩ | ⟨h2, h3⟩)
      · exact absurd (h2.trans h3) (not_le.mpr hlt)
      · exact ⟨by nlinarith, by nlinarith⟩
  · have hlt : sb < st := by
      by_contra hcon; push Not at hcon; nlinarith
    constructor
    · rintro ⟨h2, h3⟩
      left
      exact ⟨by by_contra hcon; push Not at hcon; nlinarith, by by_contra hcon; push Not at hcon; nlinarith⟩
    · rintro (⟨h2, h3⟩ | ⟨h2, h3⟩)
      · exact ⟨by nlinarith, by nlinarith⟩
      · exact absurd (h2.trans h3) (not_le.mpr hlt)

set_option maxHeartbeats 1000000 in
/-- C52: `cylinder.intersect_line(line, infinite=False)` returns the end points of the chord of the solid
cylinder, and raises iff the line does not meet the solid cylinder. -/
theorem C52_finite_cylinder {p a q d : E 3} {r : ℝ} {C : Cylinder ℝ} {L : Line ℝ}
    (hC : Cylinder.new (arr p) (arr a) r = .ok C) (hL : Line.new (arr q) (arr d) = .ok L)
    {nd : Option Int} (hnd : nd = none ∨ nd = some 0) :
    (solidCyl p a r ∩ lineSet q d = ∅ → ∃ msg, C.intersectLine L nd false = .error (.valueError msg)) ∧
    ((solidCyl p a r ∩ lineSet q d).Nonempty → ∃ x y : E 3, C.intersectLine L nd false = .ok (arr x, arr y) ∧
      solidCyl p a r ∩ lineSet q d = segment ℝ x y) := by
  classical
  obtain ⟨ha, hr, rfl⟩ := Cylinder.new_ok hC
  obtain ⟨-, hd, rfl⟩ := Line.new_ok hL
  have hu := norm_unit hd
  have hline := lineSet_unit q hd
  have hlen : 0 < ‖a‖ := norm_pos_iff.mpr ha
  obtain ⟨hi1, hi2, hi3⟩ := Cylinder.intersectInfinite_arr p ha (r := r) q hd hnd
  obtain ⟨hb1, hb2⟩ := Cylinder.intersectCap_arr p ha hr q hd 0
  obtain ⟨ht1, ht2⟩ := Cylinder.intersectCap_arr p ha hr q hd 1
  have hH := fun t => (lin_coords p ha q _ hu t).1
  obtain ⟨h1, hh1⟩ : ∃ h1, h1 = (inner ℝ (‖d‖⁻¹ • d) (‖a‖⁻¹ • a) : ℝ) := ⟨_, rfl⟩
  obtain ⟨h0, hh0⟩ : ∃ h0, h0 = psignedE p a q := ⟨_, rfl⟩
  rw [← hh1] at hb1 hb2 ht1 ht2
  simp only [← hh1, ← hh0] at hH
  have hli : h1 = 0 → LinearIndependent ℝ ![a, d] := by
    intro h
    rw [LinearIndependent.pair_iff' ha]
    rintro s rfl
    rw [hh1, real_inner_smul_left, real_inner_smul_right, real_inner_smul_left, real_inner_self_eq_norm_sq] at h
    have hs : s ≠ 0 := by rintro rfl; simp at hd
    have : ‖s • a‖⁻¹ ≠ 0 := inv_ne_zero (norm_ne_zero_iff.mpr hd)
    simp [hs, hlen.ne', this] at h
  obtain ⟨u, hudef⟩ : ∃ u, u = ‖d‖⁻¹ • d := ⟨_, rfl⟩
  simp only [← hudef] at hu hline hi1 hi2 hi3 hb2 ht2 hH
  clear hh1
  rw [zero_smul, add_zero, zero_mul] at hb2
  rw [zero_smul, add_zero] at hb1
  rw [one_smul, one_mul] at ht2
  rw [one_smul] at ht1
  obtain ⟨F, hF⟩ : ∃ F : ℝ → ℝ, ∀ t, F t = rad2 p a (q + t • u) := ⟨_, fun _ => rfl⟩
  have hmem : ∀ t : ℝ, q + t • u ∈ solidCyl p a r ↔ 0 ≤ h0 + t * h1 ∧ h0 + t * h1 ≤ ‖a‖ ∧ F t ≤ r ^ 2 := by
    intro t; rw [mem_solidCyl ha hr, hH, hF]
  have hseg : ∀ s t : ℝ, (∀ k, (0 ≤ h0 + k * h1 ∧ h0 + k * h1 ≤ ‖a‖ ∧ F k ≤ r ^ 2) ↔ k ∈ Set.uIcc s t) →
      solidCyl p a r ∩ lineSet q d = segment ℝ (q + s • u) (q + t • u) := by
    intro s t h
    rw [segment_line, hline]
    ext z
    constructor
    · rintro ⟨hz, k, rfl⟩; exact ⟨k, (h k).mp ((hmem k).mp hz), rfl⟩
    · rintro ⟨k, hk, rfl⟩; exact ⟨(hmem k).mpr ((h k).mpr hk), k, rfl⟩
  have hemp : (∀ k, ¬ (0 ≤ h0 + k * h1 ∧ h0 + k * h1 ≤ ‖a‖ ∧ F k ≤ r ^ 2)) → solidCyl p a r ∩ lineSet q d = ∅ := by
    intro h
    rw [hline, Set.eq_empty_iff_forall_notMem]
    rintro z ⟨hz, k, rfl⟩
    exact h k ((hmem k).mp hz)
  have hint : Cylinder.intersectLine ⟨arr p, arr a, r⟩ ⟨arr q, arr d⟩ nd false =
      Cylinder.intersectFinite ⟨arr p, arr a, r⟩ ⟨arr q, arr d⟩ nd := by
    simp [Cylinder.intersectLine, Line.dimension]
  rw [hint]
  -- it is enough to give, in each case, the result
  have hok : ∀ s t : ℝ, Cylinder.intersectFinite ⟨arr p, arr a, r⟩ ⟨arr q, arr d⟩ nd =
        .ok (arr (q + s • u), arr (q + t • u)) →
      (∀ k, (0 ≤ h0 + k * h1 ∧ h0 + k * h1 ≤ ‖a‖ ∧ F k ≤ r ^ 2) ↔ k ∈ Set.uIcc s t) →
      (solidCyl p a r ∩ lineSet q d = ∅ →
        ∃ msg, Cylinder.intersectFinite ⟨arr p, arr a, r⟩ ⟨arr q, arr d⟩ nd = .error (.valueError msg)) ∧
      ((solidCyl p a r ∩ lineSet q d).Nonempty → ∃ x y : E 3,
        Cylinder.intersectFinite ⟨arr p, arr a, r⟩ ⟨arr q, arr d⟩ nd = .ok (arr x, arr y) ∧
        solidCyl p a r ∩ lineSet q d = segment ℝ x y) := by
    intro s t hv hk
    have := hseg s t hk
    constructor
    · intro he
      rw [this] at he
      exact absurd he (Set.Nonempty.ne_empty ⟨_, left_mem_segment ℝ _ _⟩)
    · intro _; exact ⟨_, _, hv, this⟩
  have herr : ∀ msg, Cylinder.intersectFinite ⟨arr p, arr a, r⟩ ⟨arr q, arr d⟩ nd = .error (.valueError msg) →
      (∀ k, ¬ (0 ≤ h0 + k * h1 ∧ h0 + k * h1 ≤ ‖a‖ ∧ F k ≤ r ^ 2)) →
      (solidCyl p a r ∩ lineSet q d = ∅ →
        ∃ msg, Cylinder.intersectFinite ⟨arr p, arr a, r⟩ ⟨arr q, arr d⟩ nd = .error (.valueError msg)) ∧
      ((solidCyl p a r ∩ lineSet q d).Nonempty → ∃ x y : E 3,
        Cylinder.intersectFinite ⟨arr p, arr a, r⟩ ⟨arr q, arr d⟩ nd = .ok (arr x, arr y) ∧
        solidCyl p a r ∩ lineSet q d = segment ℝ x y) := by
    intro msg hv hk
    exact ⟨fun _ => ⟨msg, hv⟩, fun hne => absurd (hemp hk) hne.ne_empty⟩
  have hcaps : ∀ x y, Cylinder.intersectCap ⟨arr p, arr a, r⟩ ⟨arr q, arr d⟩ ⟨arr p, arr a⟩ = .ok x →
      Cylinder.intersectCap ⟨arr p, arr a, r⟩ ⟨arr q, arr d⟩ ⟨arr (p + a), arr a⟩ = .ok y →
      Cylinder.intersectCaps ⟨arr p, arr a, r⟩ ⟨arr q, arr d⟩ = .ok (x, y) := by
    intro x y hx hy
    simp [Cylinder.intersectCaps, Plane.new_arr _ ha, hx, hy]
  have hbet : ∀ t : ℝ, Cylinder.betweenCapPlanes ⟨arr p, arr a, r⟩ (arr (q + t • u)) =
      .ok (decide (0 ≤ h0 + t * h1 ∧ h0 + t * h1 ≤ ‖a‖)) := by
    intro t; rw [Cylinder.betweenCapPlanes_arr p ha, hH]
  simp only [← hF] at hi1 hi2 hi3 hb2 ht2
  by_cases hz : h1 = 0
  · have hc := hcaps _ _ (hb1 hz) (ht1 hz)
    by_cases he : ∃ t, F t ≤ r ^ 2
    · obtain ⟨t1, t2, A, hle, hA, hv, hf⟩ := hi3 (hli hz) he
      have hFt : ∀ t, F t ≤ r ^ 2 ↔ t1 ≤ t ∧ t ≤ t2 := by
        intro t; rw [← prod_nonpos hle, ← sub_nonpos, hf t]
        constructor
        · intro h; exact nonpos_of_mul_nonpos_right h hA
        · intro h; exact mul_nonpos_of_nonneg_of_nonpos hA.le h
      by_cases hin : 0 ≤ h0 ∧ h0 ≤ ‖a‖
      · refine hok t1 t2 ?_ ?_
        · simp [Cylinder.intersectFinite, hc, hv, hbet, hz, hin]
        · intro k; rw [hFt, Set.uIcc_of_le hle, hz]; simp [hin]
      · refine herr "The line does not intersect the cylinder." ?_ ?_
        · simp [Cylinder.intersectFinite, hc, hv, hbet, hz, hin]
        · intro k; rw [hz, mul_zero, add_zero]; rintro ⟨e1, e2, -⟩; exact hin ⟨e1, e2⟩
    · refine herr "The line does not intersect the cylinder." ?_ ?_
      · simp only [Cylinder.intersectFinite, hc, ok_bind, hi2 (hli hz) (fun t => not_le.mp fun h => he ⟨t, h⟩)]
        rfl
      · rintro k ⟨-, -, h⟩; exact he ⟨k, h⟩
  · obtain ⟨sb, hsb, hcb⟩ := hb2 hz
    obtain ⟨st, hst, hct⟩ := ht2 hz
    rw [hH] at hsb hst
    have hc := hcaps _ _ hcb hct
    have hslab := slab hlen hz hsb hst
    simp only [← and_assoc, hslab] at hok herr ⊢
    simp only [hslab] at hbet
    by_cases hlind : LinearIndependent ℝ ![a, d]
    · by_cases he : ∃ t, F t ≤ r ^ 2
      · obtain ⟨t1, t2, A, hle, hA, hv, hf⟩ := hi3 hlind he
        have hFt : ∀ t, F t ≤ r ^ 2 ↔ t1 ≤ t ∧ t ≤ t2 := by
          intro t; rw [← prod_nonpos hle, ← sub_nonpos, hf t]
          constructor
          · intro h; exact nonpos_of_mul_nonpos_right h hA
          · intro h; exact mul_nonpos_of_nonneg_of_nonpos hA.le h
        simp only [hFt] at hc hok herr
        have hne : sb ≠ st := by rintro rfl; rw [hsb] at hst; exact hlen.ne hst
        simp only [Set.mem_uIcc] at hbet hok herr
        by_cases hinb : t1 ≤ sb ∧ sb ≤ t2
        · by_cases hint' : t1 ≤ st ∧ st ≤ t2
          · refine hok sb st ?_ ?_
            · simp only [Cylinder.intersectFinite, hc, ok_bind, if_pos hinb, if_pos hint']; rfl
            · clear * - hle hinb hint' hne; grind
          · by_cases ha' : sb ≤ t1 ∧ t1 ≤ st ∨ st ≤ t1 ∧ t1 ≤ sb
            · by_cases hb' : sb ≤ t2 ∧ t2 ≤ st ∨ st ≤ t2 ∧ t2 ≤ sb
              · refine hok t1 t2 ?_ ?_
                · simp only [Cylinder.intersectFinite, hc, ok_bind, if_pos hinb, if_neg hint', hv, hbet, decide_eq_true ha', decide_eq_true hb']; rfl
                · clear * - hle hinb hint' ha' hb' hne; grind
              · refine hok t1 sb ?_ ?_
                · simp only [Cylinder.intersectFinite, hc, ok_bind, if_pos hinb, if_neg hint', hv, hbet, decide_eq_true ha', decide_eq_false hb']; rfl
                · clear * - hle hinb hint' ha' hb' hne; grind
            · by_cases hb' : sb ≤ t2 ∧ t2 ≤ st ∨ st ≤ t2 ∧ t2 ≤ sb
              · refine hok sb t2 ?_ ?_
                · simp only [Cylinder.intersectFinite, hc, ok_bind, if_pos hinb, if_neg hint', hv, hbet, decide_eq_false ha', decide_eq_true hb']; rfl
                · clear * - hle hinb hint' ha' hb' hne; grind
              · refine hok sb sb ?_ ?_
                · simp only [Cylinder.intersectFinite, hc, ok_bind, if_pos hinb, if_neg hint', hv, hbet, decide_eq_false ha', decide_eq_false hb']; rfl
                · clear * - hle hinb hint' ha' hb' hne; grind
        · by_cases hint' : t1 ≤ st ∧ st ≤ t2
          · by_cases ha' : sb ≤ t1 ∧ t1 ≤ st ∨ st ≤ t1 ∧ t1 ≤ sb
            · by_cases hb' : sb ≤ t2 ∧ t2 ≤ st ∨ st ≤ t2 ∧ t2 ≤ sb
              · refine hok t1 t2 ?_ ?_
                · simp only [Cylinder.intersectFinite, hc, ok_bind, if_neg hinb, if_pos hint', hv, hbet, decide_eq_true ha', decide_eq_true hb']; rfl
                · clear * - hle hinb hint' ha' hb' hne; grind
              · refine hok t1 st ?_ ?_
                · simp only [Cylinder.intersectFinite, hc, ok_bind, if_neg hinb, if_pos hint', hv, hbet, decide_eq_true ha', decide_eq_false hb']; rfl
                · clear * - hle hinb hint' ha' hb' hne; grind
            · by_cases hb' : sb ≤ t2 ∧ t2 ≤ st ∨ st ≤ t2 ∧ t2 ≤ sb
              · refine hok st t2 ?_ ?_
                · simp only [Cylinder.intersectFinite, hc, ok_bind, if_neg hinb, if_pos hint', hv, hbet, decide_eq_false ha', decide_eq_true hb']; rfl
                · clear * - hle hinb hint' ha' hb' hne; grind
              · refine hok st st ?_ ?_
                · simp only [Cylinder.intersectFinite, hc, ok_bind, if_neg hinb, if_pos hint', hv, hbet, decide_eq_false ha', decide_eq_false hb']; rfl
                · clear * - hle hinb hint' ha' hb' hne; grind
          · by_cases ha' : sb ≤ t1 ∧ t1 ≤ st ∨ st ≤ t1 ∧ t1 ≤ sb
            · by_cases hb' : sb ≤ t2 ∧ t2 ≤ st ∨ st ≤ t2 ∧ t2 ≤ sb
              · refine hok t1 t2 ?_ ?_
                · simp only [Cylinder.intersectFinite, hc, ok_bind, if_neg hinb, if_neg hint', hv, hbet, decide_eq_true ha', decide_eq_true hb']; rfl
                · clear * - hle hinb hint' ha' hb' hne; grind
              · exfalso; clear * - hle hinb hint' ha' hb' hne; grind
            · refine herr "The line does not intersect the cylinder." ?_ ?_
              · simp only [Cylinder.intersectFinite, hc, ok_bind, if_neg hinb, if_neg hint', hv, hbet, decide_eq_false ha']; rfl
              · clear * - hle hinb hint' ha' hne; grind
      · refine herr "The line does not intersect the cylinder." ?_ ?_
        · have hb0 : ¬ F sb ≤ r ^ 2 := fun h => he ⟨sb, h⟩
          simp only [Cylinder.intersectFinite, hc, ok_bind, hb0, if_false,
            hi2 hlind (fun t => not_le.mp fun h => he ⟨t, h⟩)]
          rfl
        · rintro k ⟨-, h⟩; exact he ⟨k, h⟩
    · obtain ⟨hv, hconst⟩ := hi1 hlind
      by_cases hq : F sb ≤ r ^ 2
      · refine hok sb st ?_ ?_
        · have : F st ≤ r ^ 2 := by rw [hconst st, ← hconst sb]; exact hq
          simp [Cylinder.intersectFinite, hc, hq, this]
        · intro k
          have : F k ≤ r ^ 2 := by rw [hconst k, ← hconst sb]; exact hq
          simp [this]
      · refine herr "The line does not intersect the cylinder." ?_ ?_
        · simp only [Cylinder.intersectFinite, hc, ok_bind, hq, if_false, hv]
          rfl
        · rintro k ⟨-, h⟩; apply hq; rw [hconst sb, ← hconst k]; exact h

/-- A line that meets the solid cylinder through a cap and the lateral surface. -/
example : (solidCyl (vec3 0 0 0) (vec3 0 0 2) 1 ∩ lineSet (vec3 0 0 0) (vec3 1 0 1)).Nonempty :=
  ⟨vec3 0 0 0, ⟨0, 0, by norm_num, by norm_num, by simp, by simp, by simp⟩, 0, by simp⟩

end SkSpatial
