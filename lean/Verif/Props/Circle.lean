import Verif.Props.Plane
import Verif.Model.Sphere
import Mathlib.Topology.MetricSpace.HausdorffDistance
/-! # C42 - C46, C48: circles and spheres

The circle / sphere with center `c` and radius `r` is Mathlib's `Metric.sphere c r`. -/

namespace SkSpatial

variable {n : ℕ}

theorem newBaseSphere_arr [NeZero n] (c : E n) {r : ℝ} (hr : 0 < r) :
    newBaseSphere (arr c) r = .ok (arr c, r) := by
  have : ¬ r ≤ 0 := by linarith
  simp [newBaseSphere, this]

theorem Circle.new_arr (c : E 2) {r : ℝ} (hr : 0 < r) : Circle.new (arr c) r = .ok ⟨arr c, r⟩ := by
  simp [Circle.new, newBaseSphere_arr c hr]

theorem Sphere.new_arr (c : E 3) {r : ℝ} (hr : 0 < r) : Sphere.new (arr c) r = .ok ⟨arr c, r⟩ := by
  simp [Sphere.new, newBaseSphere_arr c hr]

theorem Circle.new_ok {c : E 2} {r : ℝ} {C : Circle ℝ} (h : Circle.new (arr c) r = .ok C) :
    0 < r ∧ C = ⟨arr c, r⟩ := by
  by_cases hr : 0 < r
  · rw [Circle.new_arr c hr] at h; cases h; exact ⟨hr, rfl⟩
  · have : r ≤ 0 := by linarith
    simp [Circle.new, newBaseSphere, this] at h

theorem Sphere.new_ok {c : E 3} {r : ℝ} {C : Sphere ℝ} (h : Sphere.new (arr c) r = .ok C) :
    0 < r ∧ C = ⟨arr c, r⟩ := by
  by_cases hr : 0 < r
  · rw [Sphere.new_arr c hr] at h; cases h; exact ⟨hr, rfl⟩
  · have : r ≤ 0 := by linarith
    simp [Sphere.new, newBaseSphere, this] at h

/-! ## C42 -/

theorem exists_unit_vec [NeZero n] : ∃ u : E n, ‖u‖ = 1 :=
  ⟨EuclideanSpace.single 0 1, by simp⟩

theorem sphere_isLeast [NeZero n] (c x : E n) {r : ℝ} (hr : 0 < r) :
    IsLeast ((fun y => dist x y) '' Metric.sphere c r) |dist c x - r| := by
  constructor
  · by_cases hx : x = c
    · obtain ⟨u, hu⟩ := exists_unit_vec (n := n)
      refine ⟨c + r • u, by simp [norm_smul, hu, abs_of_pos hr], ?_⟩
      simp [hx, norm_smul, hu]
    · have hne : ‖x - c‖ ≠ 0 := norm_ne_zero_iff.mpr (sub_ne_zero.mpr hx)
      refine ⟨c + (r / ‖x - c‖) • (x - c), ?_, ?_⟩
      · simp [norm_smul, abs_of_pos hr, div_mul_cancel₀ _ hne]
      · have : x - (c + (r / ‖x - c‖) • (x - c)) = (1 - r / ‖x - c‖) • (x - c) := by
          rw [sub_smul, one_smul]; abel
        show dist x _ = _
        rw [dist_eq_norm, this, norm_smul, dist_comm c, dist_eq_norm, Real.norm_eq_abs,
          ← abs_of_nonneg (norm_nonneg (x - c)), ← abs_mul, abs_of_nonneg (norm_nonneg (x - c))]
        congr 1; field_simp
  · rintro _ ⟨y, hy, rfl⟩
    have hy' : dist y c = r := hy
    have := abs_dist_sub_le x y c
    rw [hy'] at this
    rwa [dist_comm c x]

theorem baseProjectPoint_arr [NeZero n] (c : E n) (r : ℝ) {x : E n} (hx : x ≠ c) :
    baseProjectPoint (arr c) r (arr x) = .ok (arr (c + (r / ‖x - c‖) • (x - c))) := by
  have heq : arrIsEqual (arr c) (arr x) = false := by
    have := rowEq_iff (arr c) (arr x)
    have h1 : arrIsEqual (arr c) (arr x) = rowEq (arr c) (arr x) := rfl
    rw [h1]
    by_contra hc
    rw [Bool.not_eq_false, this, arr_inj] at hc
    exact hx hc.symm
  have hne : x - c ≠ 0 := sub_ne_zero.mpr hx
  simp [baseProjectPoint, heq, unit_arr hne, smul_smul, div_eq_mul_inv]

theorem baseProjectPoint_center [NeZero n] (c : E n) (r : ℝ) :
    ∃ msg, baseProjectPoint (arr c) r (arr c) = .error (.valueError msg) := by
  have heq : arrIsEqual (arr c) (arr c) = true := (rowEq_iff (arr c) (arr c)).mpr rfl
  exact ⟨_, by simp [baseProjectPoint, heq]; rfl⟩

theorem baseProject_props [NeZero n] (c : E n) {r : ℝ} (hr : 0 < r) (x : E n) (hx : x ≠ c) :
    ∃ q : E n, baseProjectPoint (arr c) r (arr x) = .ok (arr q) ∧ q ∈ Metric.sphere c r ∧
      (∀ y ∈ Metric.sphere c r, dist x q ≤ dist x y) ∧
      (∀ y ∈ Metric.sphere c r, dist x y = dist x q → y = q) := by
  have hn : 0 < ‖x - c‖ := norm_pos_iff.mpr (sub_ne_zero.mpr hx)
  have hq : dist x (c + (r / ‖x - c‖) • (x - c)) = |dist c x - r| := by
    have : x - (c + (r / ‖x - c‖) • (x - c)) = (1 - r / ‖x - c‖) • (x - c) := by
      rw [sub_smul, one_smul]; abel
    rw [dist_eq_norm, this, norm_smul, dist_comm c, dist_eq_norm, Real.norm_eq_abs,
      ← abs_of_nonneg (norm_nonneg (x - c)), ← abs_mul, abs_of_nonneg (norm_nonneg (x - c))]
    congr 1; field_simp
  refine ⟨_, baseProjectPoint_arr c r hx, ?_, ?_, ?_⟩
  · simp [norm_smul, abs_of_pos hr, div_mul_cancel₀ _ hn.ne']
  · intro y hy
    rw [hq]
    exact (sphere_isLeast c x hr).2 ⟨y, hy, rfl⟩
  · intro y hy h
    rw [hq] at h
    -- |x - y|^2 = |x - c|^2 + r^2 - 2 <x - c, y - c>
    have hy' : ‖y - c‖ = r := by rw [← dist_eq_norm]; exact hy
    have e1 : dist x y ^ 2 = ‖x - c‖ ^ 2 - 2 * inner ℝ (x - c) (y - c) + r ^ 2 := by
      rw [dist_eq_norm, show x - y = (x - c) - (y - c) by abel, norm_sub_sq_real, hy']
    rw [h, sq_abs, dist_comm c x, dist_eq_norm] at e1
    have e2 : (inner ℝ (x - c) (y - c) : ℝ) = ‖x - c‖ * ‖y - c‖ := by rw [hy']; nlinarith
    rw [inner_eq_norm_mul_iff_real] at e2
    rw [hy'] at e2
    have : y - c = (r / ‖x - c‖) • (x - c) := by
      rw [div_eq_inv_mul, ← smul_smul, e2, smul_smul, inv_mul_cancel₀ hn.ne', one_smul]
    rw [← this]; abel

open Classical in
theorem base_contains [NeZero n] (c : E n) (r : ℝ) (x : E n) :
    containsPointFn (baseDistancePoint (arr c) r) Tol.default (arr x) =
      .ok (decide (x ∈ Metric.sphere c r)) := by
  have : |dist c x - r| = 0 ↔ x ∈ Metric.sphere c r := by
    rw [abs_eq_zero, sub_eq_zero, Metric.mem_sphere, dist_comm]
  simp only [containsPointFn, baseDistancePoint, distancePoint_arr, ok_bind, sub_real, abs_real, pure_ok,
    zero_real, isclose_default_zero, this]

open Classical in
/-- C42 for circles: distance to the circle as a set, projection, membership. -/
theorem C42_circle {c : E 2} {r : ℝ} {C : Circle ℝ} (hC : Circle.new (arr c) r = .ok C) (x : E 2) :
    (∃ d, C.distancePoint (arr x) = .ok d ∧ IsLeast ((fun y => dist x y) '' Metric.sphere c r) d) ∧
    (x ≠ c → ∃ q : E 2, C.projectPoint (arr x) = .ok (arr q) ∧ q ∈ Metric.sphere c r ∧
      (∀ y ∈ Metric.sphere c r, dist x q ≤ dist x y) ∧
      (∀ y ∈ Metric.sphere c r, dist x y = dist x q → y = q)) ∧
    (x = c → ∃ msg, C.projectPoint (arr x) = .error (.valueError msg)) ∧
    C.containsPoint Tol.default (arr x) = .ok (decide (x ∈ Metric.sphere c r)) := by
  obtain ⟨hr, rfl⟩ := Circle.new_ok hC
  refine ⟨⟨_, ?_, sphere_isLeast c x hr⟩, baseProject_props c hr x, ?_, base_contains c r x⟩
  · simp [Circle.distancePoint, baseDistancePoint]
  · rintro rfl; exact baseProjectPoint_center x r

open Classical in
/-- C42 for spheres. -/
theorem C42_sphere {c : E 3} {r : ℝ} {C : Sphere ℝ} (hC : Sphere.new (arr c) r = .ok C) (x : E 3) :
    (∃ d, C.distancePoint (arr x) = .ok d ∧ IsLeast ((fun y => dist x y) '' Metric.sphere c r) d) ∧
    (x ≠ c → ∃ q : E 3, C.projectPoint (arr x) = .ok (arr q) ∧ q ∈ Metric.sphere c r ∧
      (∀ y ∈ Metric.sphere c r, dist x q ≤ dist x y) ∧
      (∀ y ∈ Metric.sphere c r, dist x y = dist x q → y = q)) ∧
    (x = c → ∃ msg, C.projectPoint (arr x) = .error (.valueError msg)) ∧
    C.containsPoint Tol.default (arr x) = .ok (decide (x ∈ Metric.sphere c r)) := by
  obtain ⟨hr, rfl⟩ := Sphere.new_ok hC
  refine ⟨⟨_, ?_, sphere_isLeast c x hr⟩, baseProject_props c hr x, ?_, base_contains c r x⟩
  · simp [Sphere.distancePoint, baseDistancePoint]
  · rintro rfl; exact baseProjectPoint_center x r

example : ∃ C, Circle.new (arr (vec2 1 2)) 3 = .ok C := ⟨_, Circle.new_arr _ (by norm_num)⟩
example : ∃ C, Sphere.new (arr (vec3 1 2 3)) 4 = .ok C := ⟨_, Sphere.new_arr _ (by norm_num)⟩

/-! ## C43 -/

theorem collinear_iff_dependent {a b c : E n} :
    Collinear ℝ {a, b, c} ↔ ¬ LinearIndependent ℝ ![b - a, c - a] := by
  refine ⟨collinear_dependent, fun h => ?_⟩
  rw [LinearIndependent.pair_iff] at h
  push Not at h
  obtain ⟨s, t, hst, hne⟩ := h
  rw [collinear_iff_of_mem (p₀ := a) (by simp)]
  by_cases ht : t = 0
  · have hs : s ≠ 0 := fun hs => hne hs ht
    have hb : b - a = 0 := by simpa [ht, hs] using hst
    refine ⟨c - a, ?_⟩
    rintro x (rfl | rfl | rfl)
    · exact ⟨0, by simp⟩
    · exact ⟨0, by simpa using sub_eq_zero.mp hb⟩
    · exact ⟨1, by simp⟩
  · have hc : c - a = (-s / t) • (b - a) := by
      have h1 : t • (c - a) = (-s) • (b - a) := by rw [neg_smul]; exact eq_neg_of_add_eq_zero_right hst
      rw [div_eq_inv_mul, ← smul_smul, ← h1, smul_smul, inv_mul_cancel₀ ht, one_smul]
    refine ⟨b - a, ?_⟩
    rintro x (rfl | rfl | rfl)
    · exact ⟨0, by simp⟩
    · exact ⟨1, by simp⟩
    · exact ⟨-s / t, by rw [← hc]; simp⟩

/-- Twice the signed area of a triangle of the plane. -/
noncomputable def orient2 (a b c : E 2) : ℝ := (b 0 - a 0) * (c 1 - a 1) - (c 0 - a 0) * (b 1 - a 1)

theorem collinear_iff_orient2 {a b c : E 2} : Collinear ℝ {a, b, c} ↔ orient2 a b c = 0 := by
  rw [collinear_iff_dependent]
  constructor
  · intro h
    have h2 : ¬ LinearIndependent ℝ ![pad3 (b - a), pad3 (c - a)] := by
      intro hli
      apply h
      rw [LinearIndependent.pair_iff] at hli ⊢
      intro s t hst
      apply hli
      rw [← pad3_smul, ← pad3_smul, ← pad3_add, hst]
      ext i; simp [padTo]
    have := congrFun (congrArg WithLp.ofLp ((crossE_eq_zero_iff _ _).mpr h2)) 2
    simp [crossE, vec3, padTo] at this
    rw [orient2]; linarith
  · intro h hli
    apply crossE_pad3_ne_zero (by norm_num) hli
    rw [orient2] at h
    ext i
    fin_cases i
    · simp [crossE, vec3, padTo]
    · simp [crossE, vec3, padTo]
    · simp [crossE, vec3, padTo]; linarith

theorem mem_sphere2 {c : E 2} {r : ℝ} (hr : 0 ≤ r) {x : E 2} :
    x ∈ Metric.sphere c r ↔ (x 0 - c 0) ^ 2 + (x 1 - c 1) ^ 2 = r ^ 2 := by
  rw [Metric.mem_sphere, dist_eq_norm, ← sq_eq_sq₀ (norm_nonneg _) hr, norm_sq2]
  simp

/-- The algebra of `Circle.from_points`. -/
theorem circum_algebra (a0 a1 b0 b1 c0 c1 : ℝ)
    (hD : (b0 - a0) * (c1 - a1) - (c0 - a0) * (b1 - a1) ≠ 0) :
    ∃ x y R : ℝ,
      Circle.det3 a0 a1 1 b0 b1 1 c0 c1 1 ≠ 0 ∧
      1 / 2 * Circle.det3 (a0 ^ 2 + a1 ^ 2) a1 1 (b0 ^ 2 + b1 ^ 2) b1 1 (c0 ^ 2 + c1 ^ 2) c1 1 /
        Circle.det3 a0 a1 1 b0 b1 1 c0 c1 1 = x ∧
      -(1 / 2) * Circle.det3 (a0 ^ 2 + a1 ^ 2) a0 1 (b0 ^ 2 + b1 ^ 2) b0 1 (c0 ^ 2 + c1 ^ 2) c0 1 /
        Circle.det3 a0 a1 1 b0 b1 1 c0 c1 1 = y ∧
      x ^ 2 + y ^ 2 + Circle.det3 (a0 ^ 2 + a1 ^ 2) a0 a1 (b0 ^ 2 + b1 ^ 2) b0 b1 (c0 ^ 2 + c1 ^ 2) c0 c1 /
        Circle.det3 a0 a1 1 b0 b1 1 c0 c1 1 = R ∧
      (a0 - x) ^ 2 + (a1 - y) ^ 2 = R ∧ (b0 - x) ^ 2 + (b1 - y) ^ 2 = R ∧
      (c0 - x) ^ 2 + (c1 - y) ^ 2 = R ∧ 0 < R := by
  have e00 : Circle.det3 a0 a1 1 b0 b1 1 c0 c1 1 = (b0 - a0) * (c1 - a1) - (c0 - a0) * (b1 - a1) := by
    simp [Circle.det3]; ring
  obtain ⟨D, hDv⟩ : ∃ D, D = (b0 - a0) * (c1 - a1) - (c0 - a0) * (b1 - a1) := ⟨_, rfl⟩
  rw [← hDv] at e00 hD
  obtain ⟨m01, h01⟩ : ∃ m, m = Circle.det3 (a0 ^ 2 + a1 ^ 2) a1 1 (b0 ^ 2 + b1 ^ 2) b1 1 (c0 ^ 2 + c1 ^ 2) c1 1 :=
    ⟨_, rfl⟩
  obtain ⟨m02, h02⟩ : ∃ m, m = Circle.det3 (a0 ^ 2 + a1 ^ 2) a0 1 (b0 ^ 2 + b1 ^ 2) b0 1 (c0 ^ 2 + c1 ^ 2) c0 1 :=
    ⟨_, rfl⟩
  obtain ⟨m03, h03⟩ : ∃ m, m = Circle.det3 (a0 ^ 2 + a1 ^ 2) a0 a1 (b0 ^ 2 + b1 ^ 2) b0 b1 (c0 ^ 2 + c1 ^ 2) c0 c1 :=
    ⟨_, rfl⟩
  rw [e00, ← h01, ← h02, ← h03]
  simp only [Circle.det3, add_real, sub_real, mul_real] at h01 h02 h03
  have ka : (a0 ^ 2 + a1 ^ 2) * D - a0 * m01 + a1 * m02 - m03 = 0 := by rw [h01, h02, h03, hDv]; ring
  have kb : (b0 ^ 2 + b1 ^ 2) * D - b0 * m01 + b1 * m02 - m03 = 0 := by rw [h01, h02, h03, hDv]; ring
  have kc : (c0 ^ 2 + c1 ^ 2) * D - c0 * m01 + c1 * m02 - m03 = 0 := by rw [h01, h02, h03, hDv]; ring
  clear h01 h02 h03
  obtain ⟨x, hx⟩ : ∃ x, 1 / 2 * m01 / D = x := ⟨_, rfl⟩
  obtain ⟨y, hy⟩ : ∃ y, -(1 / 2) * m02 / D = y := ⟨_, rfl⟩
  rw [hx, hy]
  have hxD : x * D = 1 / 2 * m01 := by rw [← hx]; field_simp
  have hyD : y * D = -(1 / 2) * m02 := by rw [← hy]; field_simp
  have hm03 : m03 / D * D = m03 := by field_simp
  obtain ⟨R, hR⟩ : ∃ R, x ^ 2 + y ^ 2 + m03 / D = R := ⟨_, rfl⟩
  have pa : (a0 - x) ^ 2 + (a1 - y) ^ 2 = R := by
    apply mul_right_cancel₀ hD
    rw [← hR]
    linear_combination ka - hm03 + (-2 * a0) * hxD + (-2 * a1) * hyD
  have pb : (b0 - x) ^ 2 + (b1 - y) ^ 2 = R := by
    apply mul_right_cancel₀ hD
    rw [← hR]
    linear_combination kb - hm03 + (-2 * b0) * hxD + (-2 * b1) * hyD
  have pc : (c0 - x) ^ 2 + (c1 - y) ^ 2 = R := by
    apply mul_right_cancel₀ hD
    rw [← hR]
    linear_combination kc - hm03 + (-2 * c0) * hxD + (-2 * c1) * hyD
  refine ⟨x, y, R, hD, rfl, rfl, hR, pa, pb, pc, ?_⟩
  rcases lt_or_ge 0 R with h1 | h1
  · exact h1
  · exfalso
    have z1 : a0 - x = 0 := by
      have : (a0 - x) ^ 2 = 0 := le_antisymm (by linarith [sq_nonneg (a1 - y)]) (sq_nonneg _)
      exact pow_eq_zero_iff two_ne_zero |>.mp this
    have z2 : a1 - y = 0 := by
      have : (a1 - y) ^ 2 = 0 := le_antisymm (by linarith [sq_nonneg (a0 - x)]) (sq_nonneg _)
      exact pow_eq_zero_iff two_ne_zero |>.mp this
    have z3 : b0 - x = 0 := by
      have : (b0 - x) ^ 2 = 0 := le_antisymm (by linarith [sq_nonneg (b1 - y)]) (sq_nonneg _)
      exact pow_eq_zero_iff two_ne_zero |>.mp this
    have z4 : b1 - y = 0 := by
      have : (b1 - y) ^ 2 = 0 := le_antisymm (by linarith [sq_nonneg (b0 - x)]) (sq_nonneg _)
      exact pow_eq_zero_iff two_ne_zero |>.mp this
    apply hD
    rw [hDv, show b0 - a0 = 0 by linarith, show b1 - a1 = 0 by linarith]; ring

section
variable [NumpyExt ℝ] [LawfulNumpy]

/-- C43: `Circle.from_points`: collinear points raise; three points not accepted as collinear give the
only circle through them. -/
theorem C43_from_points (a b c : E 2) (tol : Option ℝ) (htol : ∀ t, tol = some t → 0 ≤ t) :
    (Pts.areCollinear tol (rows [a, b, c]) = .ok true →
      ∃ msg, Circle.fromPoints tol (arr a) (arr b) (arr c) = .error (.valueError msg)) ∧
    (Collinear ℝ {a, b, c} →
      ∃ msg, Circle.fromPoints tol (arr a) (arr b) (arr c) = .error (.valueError msg)) ∧
    (Pts.areCollinear tol (rows [a, b, c]) = .ok false → ∃ (C : Circle ℝ) (o : E 2) (r : ℝ),
      Circle.fromPoints tol (arr a) (arr b) (arr c) = .ok C ∧ Circle.new (arr o) r = .ok C ∧
      a ∈ Metric.sphere o r ∧ b ∈ Metric.sphere o r ∧ c ∈ Metric.sphere o r ∧
      ∀ (o' : E 2) (r' : ℝ), a ∈ Metric.sphere o' r' → b ∈ Metric.sphere o' r' →
        c ∈ Metric.sphere o' r' → o' = o ∧ r' = r) := by
  have hset : ({x | x ∈ [a, b, c]} : Set (E 2)) = {a, b, c} := by ext x; simp
  obtain ⟨-, col, -, -, hcol, -, -, hc, -⟩ := C22_predicates (P := [a, b, c]) (by simp) tol htol
  rw [hset] at hc
  have hrows : rows [a, b, c] = [[a 0, a 1], [b 0, b 1], [c 0, c 1]] := by simp [rows, arr2]
  have hnp : newPoints [[a 0, a 1], [b 0, b 1], [c 0, c 1]] = .ok (rows [a, b, c]) := by
    rw [← hrows]; exact newPoints_rows (by simp)
  have htrue : Pts.areCollinear tol (rows [a, b, c]) = .ok true →
      ∃ msg, Circle.fromPoints tol (arr a) (arr b) (arr c) = .error (.valueError msg) := by
    intro h
    refine ⟨"The points must not be collinear.", ?_⟩
    simp only [Circle.fromPoints, new1D_arr, ok_bind]
    simp only [arr2, hnp, ok_bind, h, if_true]
  refine ⟨htrue, fun h => htrue (by rw [hcol, hc h]), fun h => ?_⟩
  have hD : orient2 a b c ≠ 0 := by
    intro h0
    have := hc (collinear_iff_orient2.mpr h0)
    rw [hcol, this] at h; cases h
  obtain ⟨x, y, R, e00, hx, hy, hR, pa, pb, pc, hRpos⟩ :=
    circum_algebra (a 0) (a 1) (b 0) (b 1) (c 0) (c 1) hD
  have hsq : 0 < Real.sqrt R := Real.sqrt_pos.mpr hRpos
  have hnew := Circle.new_arr (vec2 x y) hsq
  have hval : Circle.fromPoints tol (arr a) (arr b) (arr c) = .ok ⟨arr (vec2 x y), Real.sqrt R⟩ := by
    simp only [Circle.fromPoints, new1D_arr, ok_bind]
    simp only [arr2 a, arr2 b, arr2 c, hnp, ok_bind, h, Bool.false_eq_true, if_false]
    simp only [sq_real, add_real, one_real, half_real, neg_real, mul_real, div_real]
    rw [hx, hy, hR]
    have : ¬ R < 0 := by linarith
    simp only [mathSqrt, zero_real, lt_real, this, decide_false, Bool.false_eq_true, if_false, ok_bind,
      sqrt_real]
    rw [← hnew]; simp [arr2, vec2]
  have hRsq : Real.sqrt R ^ 2 = R := Real.sq_sqrt hRpos.le
  refine ⟨_, vec2 x y, Real.sqrt R, hval, hnew, ?_, ?_, ?_, ?_⟩
  · rw [mem_sphere2 hsq.le, hRsq]; simpa [vec2] using pa
  · rw [mem_sphere2 hsq.le, hRsq]; simpa [vec2] using pb
  · rw [mem_sphere2 hsq.le, hRsq]; simpa [vec2] using pc
  · intro o' r' ha hb hc'
    have hr' : 0 ≤ r' := by rw [← Metric.mem_sphere.mp ha]; exact dist_nonneg
    rw [mem_sphere2 hr'] at ha hb hc'
    have hu : (o' 0 - x) * orient2 a b c = 0 := by
      rw [orient2]
      linear_combination ((c 1 - a 1) * (ha - hb - pa + pb) - (b 1 - a 1) * (ha - hc' - pa + pc)) / 2
    have hv : (o' 1 - y) * orient2 a b c = 0 := by
      rw [orient2]
      linear_combination (-(c 0 - a 0) * (ha - hb - pa + pb) + (b 0 - a 0) * (ha - hc' - pa + pc)) / 2
    have hu' : o' 0 = x := by
      rcases mul_eq_zero.mp hu with h1 | h1
      · linarith
      · exact absurd h1 hD
    have hv' : o' 1 = y := by
      rcases mul_eq_zero.mp hv with h1 | h1
      · linarith
      · exact absurd h1 hD
    constructor
    · ext i; fin_cases i <;> simp [vec2, hu', hv']
    · rw [hu', hv', pa] at ha
      rw [ha, Real.sqrt_sq hr']

omit [LawfulNumpy] in
/-- C43: points of another dimension raise. -/
theorem C43_from_points_dimension [NeZero n] (hn : n ≠ 2) (a b c : E n) (tol : Option ℝ) :
    ∃ msg, Circle.fromPoints tol (arr a) (arr b) (arr c) = .error (.valueError msg) := by
  refine ⟨"The points must be 2D.", ?_⟩
  simp only [Circle.fromPoints, new1D_arr, ok_bind]
  split
  · rename_i h1 _ _
    have := congrArg List.length h1
    simp at this; exact absurd this hn
  · rfl

end

end SkSpatial
