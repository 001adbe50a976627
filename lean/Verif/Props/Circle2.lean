import Verif.Props.Circle
/-! # C44 - C46, C48: intersections of circles and spheres; meshes -/

namespace SkSpatial

variable {n : ℕ}

/-! ## C44 -/

theorem dist_sq2 (p q : E 2) : dist p q ^ 2 = (q 0 - p 0) ^ 2 + (q 1 - p 1) ^ 2 := by
  rw [dist_comm, dist_eq_norm, norm_sq2]; simp

theorem intersectCircle_vals {p q : E 2} {r s : ℝ} (hd : dist p q ≠ 0) (h1 : dist p q ≤ r + s)
    (h2 : |r - s| ≤ dist p q) {a h : ℝ}
    (ha : a = (r ^ 2 - s ^ 2 + dist p q ^ 2) / (2 * dist p q)) (hh : 0 ≤ r ^ 2 - a ^ 2)
    (hh' : h = Real.sqrt (r ^ 2 - a ^ 2)) :
    Circle.intersectCircle ⟨arr p, r⟩ ⟨arr q, s⟩ = .ok
      (arr (vec2 (p 0 + a * (q 0 - p 0) / dist p q + h * (p 1 - q 1) / dist p q)
        (p 1 + a * (q 1 - p 1) / dist p q - h * (p 0 - q 0) / dist p q)),
       arr (vec2 (p 0 + a * (q 0 - p 0) / dist p q - h * (p 1 - q 1) / dist p q)
        (p 1 + a * (q 1 - p 1) / dist p q + h * (p 0 - q 0) / dist p q))) := by
  have h1' : ¬ r + s < dist p q := not_lt.mpr h1
  have h2' : ¬ dist p q < |r - s| := not_lt.mpr h2
  have hh2 : ¬ r ^ 2 - a ^ 2 < 0 := not_lt.mpr hh
  have hmid : arr (p + (dist p q)⁻¹ • a • (q - p)) =
      [p 0 + a * (q 0 - p 0) / dist p q, p 1 + a * (q 1 - p 1) / dist p q] := by
    rw [arr2]
    simp only [PiLp.add_apply, PiLp.smul_apply, PiLp.sub_apply, smul_eq_mul]
    congr 1
    · ring
    · congr 1; ring
  simp only [Circle.intersectCircle, distancePoint_arr, ok_bind, eq_real, zero_real, hd, decide_false,
    Bool.false_eq_true, if_false, lt_real, add_real, h1', sub_real, abs_real, h2', sq_real, div_real, mul_real,
    two_real, ← ha, mathSqrt, hh2, sqrt_real, ← hh', fromPoints_arr, smul_arr, sdiv_arr, vadd_arr]
  rw [hmid]
  simp only [arr2 p, arr2 q]
  rw [new1D_real _ (by simp), ok_bind, new1D_real _ (by simp), ok_bind]
  simp only [arr2, vec2, ofInt_real]
  simp [neg_div]
  ring_nf

/-- C44: `circle.intersect_circle` raises iff the centers coincide or there is no common point; otherwise the
two points returned are exactly the common points, equal iff the circles are tangent. -/
theorem C44_intersect_circle {p q : E 2} {r s : ℝ} {C D : Circle ℝ} (hC : Circle.new (arr p) r = .ok C)
    (hD : Circle.new (arr q) s = .ok D) :
    (p = q ∨ Metric.sphere p r ∩ Metric.sphere q s = ∅ →
      ∃ msg, C.intersectCircle D = .error (.valueError msg)) ∧
    (p ≠ q → (Metric.sphere p r ∩ Metric.sphere q s).Nonempty → ∃ x y : E 2,
      C.intersectCircle D = .ok (arr x, arr y) ∧ Metric.sphere p r ∩ Metric.sphere q s = {x, y} ∧
      (x = y ↔ dist p q = r + s ∨ dist p q = |r - s|)) := by
  obtain ⟨hr, rfl⟩ := Circle.new_ok hC
  obtain ⟨hs, rfl⟩ := Circle.new_ok hD
  -- a common point forces the triangle inequalities
  have htri : (Metric.sphere p r ∩ Metric.sphere q s).Nonempty → dist p q ≤ r + s ∧ |r - s| ≤ dist p q := by
    rintro ⟨z, hz1, hz2⟩
    rw [Metric.mem_sphere] at hz1 hz2
    constructor
    · calc dist p q ≤ dist p z + dist z q := dist_triangle _ _ _
        _ = r + s := by rw [dist_comm p z, hz1, hz2]
    · rw [← hz1, ← hz2, dist_comm z p, dist_comm z q]
      exact abs_dist_sub_le p q z
  -- the converse: the two points
  have hmain : p ≠ q → dist p q ≤ r + s → |r - s| ≤ dist p q → ∃ x y : E 2,
      Circle.intersectCircle ⟨arr p, r⟩ ⟨arr q, s⟩ = .ok (arr x, arr y) ∧
      Metric.sphere p r ∩ Metric.sphere q s = {x, y} ∧
      (x = y ↔ dist p q = r + s ∨ dist p q = |r - s|) := by
    intro hpq h1 h2
    have hd : 0 < dist p q := dist_pos.mpr hpq
    have hd2 := dist_sq2 p q
    have hval := @intersectCircle_vals p q r s hd.ne' h1 h2
    obtain ⟨d, hdd⟩ : ∃ d, d = dist p q := ⟨_, rfl⟩
    rw [← hdd] at hd hd2 hval h1 h2 ⊢
    obtain ⟨a, ha⟩ : ∃ a, a = (r ^ 2 - s ^ 2 + d ^ 2) / (2 * d) := ⟨_, rfl⟩
    have had : 2 * d * a = r ^ 2 - s ^ 2 + d ^ 2 := by rw [ha]; field_simp
    obtain ⟨h2a, h2b⟩ := abs_le.mp h2
    have hprod : 4 * d ^ 2 * (r ^ 2 - a ^ 2) = (s - d + r) * (s + d - r) * ((d + r - s) * (d + r + s)) := by
      linear_combination (-(2 * d * a) - (r ^ 2 - s ^ 2 + d ^ 2)) * had
    have hh : 0 ≤ r ^ 2 - a ^ 2 := by
      have hpos : 0 < 4 * d ^ 2 := by positivity
      have : 0 ≤ 4 * d ^ 2 * (r ^ 2 - a ^ 2) := by
        rw [hprod]
        apply mul_nonneg
        · exact mul_nonneg (by linarith) (by linarith)
        · exact mul_nonneg (by linarith) (by linarith)
      exact nonneg_of_mul_nonneg_right this hpos
    obtain ⟨h, hh'⟩ : ∃ h, h = Real.sqrt (r ^ 2 - a ^ 2) := ⟨_, rfl⟩
    have hsq : h ^ 2 = r ^ 2 - a ^ 2 := by rw [hh', Real.sq_sqrt hh]
    have hv := hval ha hh hh'
    -- the frame along the line of centers
    obtain ⟨e, he⟩ : ∃ e, e = (q 0 - p 0) / d := ⟨_, rfl⟩
    obtain ⟨f, hf⟩ : ∃ f, f = (q 1 - p 1) / d := ⟨_, rfl⟩
    have he' : q 0 - p 0 = d * e := by rw [he]; field_simp
    have hf' : q 1 - p 1 = d * f := by rw [hf]; field_simp
    have hef : e ^ 2 + f ^ 2 = 1 := by
      rw [he', hf'] at hd2
      have hd0 : d ^ 2 ≠ 0 := by positivity
      apply mul_left_cancel₀ hd0
      linear_combination -hd2
    have x0 : p 0 + a * (q 0 - p 0) / d + h * (p 1 - q 1) / d = p 0 + a * e - h * f := by
      rw [he, hf]; ring
    have x1 : p 1 + a * (q 1 - p 1) / d - h * (p 0 - q 0) / d = p 1 + a * f + h * e := by
      rw [he, hf]; ring
    have y0 : p 0 + a * (q 0 - p 0) / d - h * (p 1 - q 1) / d = p 0 + a * e + h * f := by
      rw [he, hf]; ring
    have y1 : p 1 + a * (q 1 - p 1) / d + h * (p 0 - q 0) / d = p 1 + a * f - h * e := by
      rw [he, hf]; ring
    rw [x0, x1, y0, y1] at hv
    have hq0 : q 0 = p 0 + d * e := by linarith
    have hq1 : q 1 = p 1 + d * f := by linarith
    refine ⟨_, _, hv, ?_, ?_⟩
    · ext z
      rw [Set.mem_inter_iff, mem_sphere2 hr.le, mem_sphere2 hs.le, hq0, hq1, Set.mem_insert_iff,
        Set.mem_singleton_iff]
      constructor
      · rintro ⟨z1, z2⟩
        -- coordinates in the frame
        obtain ⟨α, hα⟩ : ∃ α, α = (z 0 - p 0) * e + (z 1 - p 1) * f := ⟨_, rfl⟩
        obtain ⟨β, hβ⟩ : ∃ β, β = -(z 0 - p 0) * f + (z 1 - p 1) * e := ⟨_, rfl⟩
        have w0 : z 0 = p 0 + α * e - β * f := by
          rw [hα, hβ]; linear_combination (-(z 0 - p 0)) * hef
        have w1 : z 1 = p 1 + α * f + β * e := by
          rw [hα, hβ]; linear_combination (-(z 1 - p 1)) * hef
        have hαa : α = a := by
          have : 2 * d * α = 2 * d * a := by
            rw [had, hα]; linear_combination z1 - z2 + d ^ 2 * hef
          exact mul_left_cancel₀ (by positivity) this
        have hβh : β ^ 2 = h ^ 2 := by
          rw [hsq, ← hαa, hα, hβ]
          linear_combination ((z 0 - p 0) ^ 2 + (z 1 - p 1) ^ 2) * hef + z1
        rcases sq_eq_sq_iff_eq_or_eq_neg.mp hβh with hb | hb
        · left
          ext i; fin_cases i
          · simp [vec2, w0, hαa, hb]
          · simp [vec2, w1, hαa, hb]
        · right
          ext i; fin_cases i
          · simp [vec2, w0, hαa, hb]
          · simp [vec2, w1, hαa, hb]; ring
      · rintro (rfl | rfl)
        · simp only [vec2]
          refine ⟨?_, ?_⟩
          · simp; linear_combination (a ^ 2 + h ^ 2) * hef + hsq
          · simp; linear_combination ((a - d) ^ 2 + h ^ 2) * hef + hsq - had
        · simp only [vec2]
          refine ⟨?_, ?_⟩
          · simp; linear_combination (a ^ 2 + h ^ 2) * hef + hsq
          · simp; linear_combination ((a - d) ^ 2 + h ^ 2) * hef + hsq - had
    · have hxy : (vec2 (p 0 + a * e - h * f) (p 1 + a * f + h * e) =
          vec2 (p 0 + a * e + h * f) (p 1 + a * f - h * e)) ↔ h = 0 := by
        constructor
        · intro heq
          have g0 := congrFun (congrArg WithLp.ofLp heq) 0
          have g1 := congrFun (congrArg WithLp.ofLp heq) 1
          simp only [vec2] at g0 g1
          simp at g0 g1
          have hhf : h * f = 0 := by linarith
          have hhe : h * e = 0 := by linarith
          have : h ^ 2 = 0 := by
            linear_combination (-(h ^ 2)) * hef + (h * f) * hhf + (h * e) * hhe
          exact pow_eq_zero_iff two_ne_zero |>.mp this
        · intro h0; rw [h0]; simp
      rw [hxy]
      have hz : h = 0 ↔ (s - d + r) * (s + d - r) * ((d + r - s) * (d + r + s)) = 0 := by
        rw [← hprod, ← hsq]
        constructor
        · intro h0; rw [h0]; ring
        · intro h0
          rcases mul_eq_zero.mp h0 with h3 | h3
          · exfalso; have : 0 < 4 * d ^ 2 := by positivity
            linarith
          · exact pow_eq_zero_iff two_ne_zero |>.mp h3
      rw [hz]
      constructor
      · intro h0
        rcases mul_eq_zero.mp h0 with h3 | h3
        · rcases mul_eq_zero.mp h3 with h4 | h4
          · left; linarith
          · right; rw [abs_of_nonneg (by linarith)]; linarith
        · rcases mul_eq_zero.mp h3 with h4 | h4
          · right; rw [abs_of_nonpos (by linarith)]; linarith
          · exfalso; linarith
      · rintro (h3 | h3)
        · rw [show s - d + r = 0 by linarith]; ring
        · rcases abs_choice (r - s) with h4 | h4
          · rw [show s + d - r = 0 by linarith]; ring
          · rw [show d + r - s = 0 by linarith]; ring
  constructor
  · rintro (rfl | hempty)
    · exact ⟨_, by simp [Circle.intersectCircle]; rfl⟩
    · by_cases hpq : p = q
      · subst hpq; exact ⟨_, by simp [Circle.intersectCircle]; rfl⟩
      · have hd : dist p q ≠ 0 := (dist_pos.mpr hpq).ne'
        by_cases h1 : r + s < dist p q
        · refine ⟨"The circles do not intersect. These circles are separate.", ?_⟩
          simp only [Circle.intersectCircle, distancePoint_arr, ok_bind, eq_real, zero_real, hd, decide_false,
            Bool.false_eq_true, if_false, lt_real, add_real, h1, decide_true, if_true]
        · by_cases h2 : dist p q < |r - s|
          · refine ⟨"The circles do not intersect. One circle is contained within the other.", ?_⟩
            simp only [Circle.intersectCircle, distancePoint_arr, ok_bind, eq_real, zero_real, hd, decide_false,
              Bool.false_eq_true, if_false, lt_real, add_real, h1, sub_real, abs_real, h2, decide_true, if_true]
          · obtain ⟨x, y, -, hset, -⟩ := hmain hpq (not_lt.mp h1) (not_lt.mp h2)
            rw [hempty] at hset
            have : x ∈ (∅ : Set (E 2)) := by rw [hset]; simp
            exact absurd this (by simp)
  · intro hpq hne
    obtain ⟨h1, h2⟩ := htri hne
    exact hmain hpq h1 h2

/-- Two circles with two common points. -/
example : vec2 0 0 ≠ vec2 1 0 ∧ (Metric.sphere (vec2 0 0) 1 ∩ Metric.sphere (vec2 1 0) 1).Nonempty := by
  refine ⟨fun h => ?_, vec2 (1 / 2) (Real.sqrt 3 / 2), ?_, ?_⟩
  · have := congrFun (congrArg WithLp.ofLp h) 0; simp [vec2] at this
  · rw [mem_sphere2 (by norm_num)]; simp [vec2, div_pow]; norm_num
  · rw [mem_sphere2 (by norm_num)]; simp [vec2, div_pow]; norm_num

/-! ## C46 -/

theorem line_sphere_iff (c p u : E n) (hu : ‖u‖ = 1) {r : ℝ} (hr : 0 ≤ r) (t : ℝ) :
    p + t • u ∈ Metric.sphere c r ↔
      (t + inner ℝ u (p - c)) ^ 2 = (inner ℝ u (p - c) : ℝ) ^ 2 - (‖p - c‖ ^ 2 - r ^ 2) := by
  rw [Metric.mem_sphere, dist_eq_norm, ← sq_eq_sq₀ (norm_nonneg _) hr, add_sub_right_comm, norm_add_sq_real,
    norm_smul, mul_pow, hu, real_inner_smul_right, Real.norm_eq_abs, sq_abs, real_inner_comm]
  constructor <;> intro h <;> linarith

theorem lineSet_unit (p : E n) {d : E n} (hd : d ≠ 0) : lineSet p d = lineSet p (‖d‖⁻¹ • d) := by
  have h : ‖d‖ ≠ 0 := norm_ne_zero_iff.mpr hd
  ext x
  constructor
  · rintro ⟨t, rfl⟩
    exact ⟨t * ‖d‖, by rw [smul_smul, mul_assoc, mul_inv_cancel₀ h, mul_one]⟩
  · rintro ⟨t, rfl⟩
    exact ⟨t * ‖d‖⁻¹, by rw [smul_smul]⟩

theorem norm_unit {d : E n} (hd : d ≠ 0) : ‖‖d‖⁻¹ • d‖ = 1 := by
  rw [norm_smul, norm_inv, norm_norm, inv_mul_cancel₀ (norm_ne_zero_iff.mpr hd)]

/-- C46: `sphere.intersect_line`: the two points are exactly the common points, in the order of the
direction; `ValueError` iff there is none. -/
theorem C46_sphere_intersect_line {c p d : E 3} {r : ℝ} {S : Sphere ℝ} {L : Line ℝ}
    (hS : Sphere.new (arr c) r = .ok S) (hL : Line.new (arr p) (arr d) = .ok L) :
    (Metric.sphere c r ∩ lineSet p d = ∅ → ∃ msg, S.intersectLine L = .error (.valueError msg)) ∧
    ((Metric.sphere c r ∩ lineSet p d).Nonempty → ∃ x y : E 3, S.intersectLine L = .ok (arr x, arr y) ∧
      Metric.sphere c r ∩ lineSet p d = {x, y} ∧ ∃ t : ℝ, 0 ≤ t ∧ y = x + t • d) := by
  obtain ⟨hr, rfl⟩ := Sphere.new_ok hS
  obtain ⟨-, hd, rfl⟩ := Line.new_ok hL
  have hu := norm_unit hd
  have hline := lineSet_unit p hd
  obtain ⟨u, hudef⟩ : ∃ u, u = ‖d‖⁻¹ • d := ⟨_, rfl⟩
  rw [← hudef] at hu hline
  have hunit : Vec.unit (arr d) = .ok (arr u) := by rw [unit_arr hd, hudef]
  obtain ⟨b, hb⟩ : ∃ b, b = (inner ℝ u (p - c) : ℝ) := ⟨_, rfl⟩
  obtain ⟨Δ, hΔ⟩ : ∃ Δ, Δ = b ^ 2 - (‖p - c‖ ^ 2 - r ^ 2) := ⟨_, rfl⟩
  have hmem : ∀ t : ℝ, p + t • u ∈ Metric.sphere c r ↔ (t + b) ^ 2 = Δ := by
    intro t; rw [line_sphere_iff c p u hu hr.le t, ← hb, ← hΔ]
  have hval : Sphere.intersectLine ⟨arr c, r⟩ ⟨arr p, arr d⟩ =
      if Δ < 0 then .error (.valueError "The line does not intersect the sphere.")
      else .ok (arr (p + (-b - Real.sqrt Δ) • u), arr (p + (-b + Real.sqrt Δ) • u)) := by
    simp only [Sphere.intersectLine, fromPoints_arr, ok_bind, hunit, dot_arr, norm_arr, sq_real, sub_real,
      ← hb, ← hΔ, zero_real, lt_real, decide_eq_true_eq]
    split_ifs with h0
    · rfl
    · simp [mathSqrt, h0, sub_eq_add_neg]
  have hset : ¬ Δ < 0 → Metric.sphere c r ∩ lineSet p d =
      {p + (-b - Real.sqrt Δ) • u, p + (-b + Real.sqrt Δ) • u} := by
    intro h0
    have hs : Real.sqrt Δ ^ 2 = Δ := Real.sq_sqrt (not_lt.mp h0)
    ext z
    rw [hline, Set.mem_inter_iff, Set.mem_insert_iff, Set.mem_singleton_iff]
    constructor
    · rintro ⟨hz, t, rfl⟩
      rw [hmem, ← hs] at hz
      rcases sq_eq_sq_iff_eq_or_eq_neg.mp hz with h1 | h1
      · right; congr 2; linarith
      · left; congr 2; linarith
    · rintro (rfl | rfl)
      · refine ⟨(hmem _).mpr ?_, _, rfl⟩
        linear_combination hs
      · refine ⟨(hmem _).mpr ?_, _, rfl⟩
        linear_combination hs
  constructor
  · intro hempty
    by_cases h0 : Δ < 0
    · exact ⟨_, by rw [hval, if_pos h0]⟩
    · have := hset h0
      rw [hempty] at this
      have h1 : p + (-b - Real.sqrt Δ) • u ∈ (∅ : Set (E 3)) := by rw [this]; simp
      exact absurd h1 (by simp)
  · rintro ⟨z, hz1, hz2⟩
    rw [hline] at hz2
    obtain ⟨t, rfl⟩ := hz2
    rw [hmem] at hz1
    have h0 : ¬ Δ < 0 := by rw [← hz1]; exact not_lt.mpr (sq_nonneg _)
    refine ⟨_, _, by rw [hval, if_neg h0], hset h0, 2 * Real.sqrt Δ * ‖d‖⁻¹, by positivity, ?_⟩
    rw [← smul_smul, ← hudef, add_assoc, ← add_smul]
    congr 2; ring

/-- A line through the center meets the sphere. -/
example : (Metric.sphere (vec3 0 0 0) 1 ∩ lineSet (vec3 0 0 0) (vec3 1 0 0)).Nonempty := by
  refine ⟨vec3 1 0 0, ?_, 1, ?_⟩
  · rw [Metric.mem_sphere, dist_eq_norm]
    rw [← Real.sqrt_sq (norm_nonneg _), norm_sq3]; simp [vec3]
  · ext i; fin_cases i <;> simp [vec3]

/-! ## C45 -/

/-- C45: `circle.intersect_line`: exactly the common points, in the order of the direction turned upwards
(of the direction itself when horizontal); `ValueError` iff there is none. -/
theorem C45_circle_intersect_line {c p d : E 2} {r : ℝ} {C : Circle ℝ} {L : Line ℝ}
    (hC : Circle.new (arr c) r = .ok C) (hL : Line.new (arr p) (arr d) = .ok L) :
    (Metric.sphere c r ∩ lineSet p d = ∅ → ∃ msg, C.intersectLine L = .error (.valueError msg)) ∧
    ((Metric.sphere c r ∩ lineSet p d).Nonempty → ∃ x y : E 2, C.intersectLine L = .ok (arr x, arr y) ∧
      Metric.sphere c r ∩ lineSet p d = {x, y} ∧
      ∃ t : ℝ, 0 ≤ t ∧ y = x + t • (if d 1 < 0 then -d else d)) := by
  obtain ⟨hr, rfl⟩ := Circle.new_ok hC
  obtain ⟨-, hd, rfl⟩ := Line.new_ok hL
  have hu := norm_unit hd
  have hline := lineSet_unit p hd
  have hdn : 0 < ‖d‖⁻¹ := inv_pos.mpr (norm_pos_iff.mpr hd)
  obtain ⟨u, hudef⟩ : ∃ u, u = ‖d‖⁻¹ • d := ⟨_, rfl⟩
  rw [← hudef] at hu hline
  have hunit : Vec.unit (arr d) = .ok (arr u) := by rw [unit_arr hd, hudef]
  have hu1 : u 0 ^ 2 + u 1 ^ 2 = 1 := by rw [← norm_sq2, hu]; norm_num
  have hsgn : u 1 < 0 ↔ d 1 < 0 := by
    rw [hudef]; simp only [PiLp.smul_apply, smul_eq_mul]
    constructor
    · intro h; by_contra hc; nlinarith
    · intro h; nlinarith
  -- the sign `sgn*` of the code
  obtain ⟨ε, hε⟩ : ∃ ε : ℝ, ε = if u 1 < 0 then -1 else 1 := ⟨_, rfl⟩
  have hε2 : ε ^ 2 = 1 := by rw [hε]; split <;> norm_num
  have hεabs : |u 1| = ε * u 1 := by
    rw [hε]; split
    · rename_i h; rw [abs_of_neg h]; ring
    · rename_i h; rw [abs_of_nonneg (not_lt.mp h)]; ring
  obtain ⟨w0, hw0⟩ : ∃ w, w = p 0 - c 0 := ⟨_, rfl⟩
  obtain ⟨w1, hw1⟩ : ∃ w, w = p 1 - c 1 := ⟨_, rfl⟩
  obtain ⟨D, hD⟩ : ∃ D, D = w0 * u 1 - u 0 * w1 := ⟨_, rfl⟩
  obtain ⟨b, hb⟩ : ∃ b, b = u 0 * w0 + u 1 * w1 := ⟨_, rfl⟩
  obtain ⟨Δ, hΔ⟩ : ∃ Δ, Δ = r ^ 2 - D ^ 2 := ⟨_, rfl⟩
  have hmem : ∀ t : ℝ, p + t • u ∈ Metric.sphere c r ↔ (t + b) ^ 2 = Δ := by
    intro t
    rw [line_sphere_iff c p u hu hr.le t, inner2, norm_sq2]
    simp only [PiLp.sub_apply, ← hw0, ← hw1, ← hb]
    have : b ^ 2 - (w0 ^ 2 + w1 ^ 2 - r ^ 2) = Δ := by
      rw [hb, hΔ, hD]; linear_combination (w0 ^ 2 + w1 ^ 2) * hu1
    rw [this]
  have hpt : ∀ s : ℝ, vec2 (D * u 1 + s * u 0 + c 0) (-D * u 0 + s * u 1 + c 1) = p + (s - b) • u := by
    intro s
    ext i; fin_cases i
    · simp [vec2]
      rw [hD, hb]; linear_combination w0 * hu1 + hw0
    · simp [vec2]
      rw [hD, hb]; linear_combination w1 * hu1 + hw1
  have hval : Circle.intersectLine ⟨arr c, r⟩ ⟨arr p, arr d⟩ =
      if Δ < 0 then .error (.valueError "The line does not intersect the circle.")
      else .ok (arr (p + (-(ε * Real.sqrt Δ) - b) • u), arr (p + (ε * Real.sqrt Δ - b) • u)) := by
    have e1 : p + u - c = vec2 (w0 + u 0) (w1 + u 1) := by
      ext i; fin_cases i
      · simp [vec2, hw0]; ring
      · simp [vec2, hw1]; ring
    have e2 : p - c = vec2 w0 w1 := by
      ext i; fin_cases i
      · simp [vec2, hw0]
      · simp [vec2, hw1]
    simp only [Circle.intersectLine, hunit, ok_bind, vadd_arr, vsub_arr, e1, e2]
    simp only [arr2 (vec2 _ _)]
    have v0 : ∀ a b : ℝ, vec2 a b 0 = a := by intro a b; simp [vec2]
    have v1 : ∀ a b : ℝ, vec2 a b 1 = b := by intro a b; simp [vec2]
    have d0 : w0 + u 0 - w0 = u 0 := by ring
    have d1 : w1 + u 1 - w1 = u 1 := by ring
    have dd : w0 * (w1 + u 1) - (w0 + u 0) * w1 = D := by rw [hD]; ring
    simp only [v0, v1, sub_real, mul_real, sq_real, add_real, d0, d1, dd, hu1, mul_one, ← hΔ, zero_real,
      lt_real, decide_eq_true_eq, div_real, div_one, abs_real, neg_real, ofInt_real]
    split_ifs with h0 h1
    · rfl
    · have hε' : ε = -1 := by rw [hε, if_pos h1]
      simp only [mathSqrt, zero_real, lt_real, h0, decide_false, Bool.false_eq_true, if_false, ok_bind, sqrt_real]
      rw [new1D_real _ (by simp), ok_bind, new1D_real _ (by simp), ok_bind, hεabs, hε']
      rw [← hpt, ← hpt]
      simp [vadd, broadcast2, arr2, vec2]
      ring_nf; simp
    · have hε' : ε = 1 := by rw [hε, if_neg h1]
      simp only [mathSqrt, zero_real, lt_real, h0, decide_false, Bool.false_eq_true, if_false, ok_bind, sqrt_real]
      rw [new1D_real _ (by simp), ok_bind, new1D_real _ (by simp), ok_bind, hεabs, hε']
      rw [← hpt, ← hpt]
      simp [vadd, broadcast2, arr2, vec2]
      ring_nf; simp
  have hset : ¬ Δ < 0 → Metric.sphere c r ∩ lineSet p d =
      {p + (-(ε * Real.sqrt Δ) - b) • u, p + (ε * Real.sqrt Δ - b) • u} := by
    intro h0
    have hs : (ε * Real.sqrt Δ) ^ 2 = Δ := by rw [mul_pow, hε2, Real.sq_sqrt (not_lt.mp h0), one_mul]
    ext z
    rw [hline, Set.mem_inter_iff, Set.mem_insert_iff, Set.mem_singleton_iff]
    constructor
    · rintro ⟨hz, t, rfl⟩
      rw [hmem, ← hs] at hz
      rcases sq_eq_sq_iff_eq_or_eq_neg.mp hz with h1 | h1
      · right; congr 2; linarith
      · left; congr 2; linarith
    · rintro (rfl | rfl)
      · refine ⟨(hmem _).mpr ?_, _, rfl⟩
        linear_combination hs
      · refine ⟨(hmem _).mpr ?_, _, rfl⟩
        linear_combination hs
  constructor
  · intro hempty
    by_cases h0 : Δ < 0
    · exact ⟨_, by rw [hval, if_pos h0]⟩
    · have := hset h0
      rw [hempty] at this
      have h1 : p + (ε * Real.sqrt Δ - b) • u ∈ (∅ : Set (E 2)) := by rw [this]; simp
      exact absurd h1 (by simp)
  · rintro ⟨z, hz1, hz2⟩
    rw [hline] at hz2
    obtain ⟨t, rfl⟩ := hz2
    rw [hmem] at hz1
    have h0 : ¬ Δ < 0 := by rw [← hz1]; exact not_lt.mpr (sq_nonneg _)
    refine ⟨_, _, by rw [hval, if_neg h0], hset h0, 2 * Real.sqrt Δ * ‖d‖⁻¹, by positivity, ?_⟩
    have hif : (if d 1 < 0 then -d else d) = ε • d := by
      rw [hε]
      by_cases h1 : d 1 < 0
      · rw [if_pos h1, if_pos (hsgn.mpr h1), neg_one_smul]
      · rw [if_neg h1, if_neg (fun h => h1 (hsgn.mp h)), one_smul]
    rw [hif, hudef, smul_smul, smul_smul, smul_smul, add_assoc, ← add_smul]
    congr 2; ring

/-! ## C48 -/

theorem length_linspace (a b : ℝ) (k : ℕ) : (linspace a b k).length = k := by
  rcases k with _ | _ | k <;> simp [linspace]

theorem mesh_grid2 {α β γ : Type} (as : List α) (bs : List β) (f g h : α → β → ℝ) (F : α → β → γ)
    (G : γ → List ℝ) (hG : ∀ a b, G (F a b) = [f a b, g a b, h a b]) :
    meshToPoints (as.map fun a => bs.map fun b => f a b) (as.map fun a => bs.map fun b => g a b)
      (as.map fun a => bs.map fun b => h a b) =
      (as.flatMap fun a => bs.map fun b => F a b).map G := by
  have key : ∀ k : α → β → ℝ, (as.map fun a => bs.map fun b => k a b).flatten =
      (as.flatMap fun a => bs.map fun b => (a, b)).map fun q => k q.1 q.2 := by
    intro k
    rw [List.map_flatMap, List.flatMap_def]
    simp [Function.comp_def]
  rw [meshToPoints, key, key, key, List.zip_map', zipWith_map_same, List.map_flatMap, List.map_flatMap]
  congr 1
  funext a
  simp [hG]

theorem linspace_zero_mem {a b : ℝ} {k : ℕ} (hk : 1 ≤ k) : a ∈ linspace a b k := by
  rcases k with _ | _ | k
  · omega
  · simp [linspace]
  · rw [linspace, List.mem_map]
    exact ⟨0, by simp, by simp⟩

theorem linspace_last_mem {a b : ℝ} {k : ℕ} (hk : 2 ≤ k) : b ∈ linspace a b k := by
  rcases k with _ | _ | k
  · omega
  · omega
  · rw [linspace, List.mem_map]
    exact ⟨k + 1, by simp, by simp⟩

/-- C48: the mesh of a sphere is `n_angles x n_angles` and lies on it; the poles are in it for
`n_angles ≥ 2`. -/
theorem C48_sphere_mesh {c : E 3} {r : ℝ} {S : Sphere ℝ} (hS : Sphere.new (arr c) r = .ok S) (k : ℕ)
    (hk : 1 ≤ k) : ∃ Q : List (E 3), S.toPoints k = .ok (rows Q) ∧ Q.length = k * k ∧
      (∀ x ∈ Q, x ∈ Metric.sphere c r) ∧
      (2 ≤ k → c + r • vec3 0 0 1 ∈ Q ∧ c - r • vec3 0 0 1 ∈ Q) ∧
      (∃ X Y Z, S.toMesh k = (X, Y, Z) ∧ X.length = k ∧ Y.length = k ∧ Z.length = k ∧
        ∀ row, row ∈ X ∨ row ∈ Y ∨ row ∈ Z → row.length = k) := by
  obtain ⟨hr, rfl⟩ := Sphere.new_ok hS
  set as := linspace (0 : ℝ) Real.pi k with has
  set bs := linspace (0 : ℝ) (2 * Real.pi) k with hbs
  let F : ℝ → ℝ → E 3 := fun a b => c + r • vec3 (Real.sin a * Real.sin b) (Real.sin a * Real.cos b) (Real.cos a)
  have hmesh : Sphere.toMesh ⟨arr c, r⟩ k =
      (as.map fun a => bs.map fun b => c 0 + r * (Real.sin a * Real.sin b),
       as.map fun a => bs.map fun b => c 1 + r * (Real.sin a * Real.cos b),
       as.map fun a => bs.map fun _ => c 2 + r * Real.cos a) := by
    simp [Sphere.toMesh, arr3, has, hbs]
  have hpts : meshToPoints (as.map fun a => bs.map fun b => c 0 + r * (Real.sin a * Real.sin b))
      (as.map fun a => bs.map fun b => c 1 + r * (Real.sin a * Real.cos b))
      (as.map fun a => bs.map fun _ => c 2 + r * Real.cos a) =
      rows (as.flatMap fun a => bs.map fun b => F a b) := by
    apply mesh_grid2
    intro a b
    simp [arr3, F, vec3]
  have hla : as.length = k := length_linspace _ _ _
  have hlb : bs.length = k := length_linspace _ _ _
  have hlen : (as.flatMap fun a => bs.map fun b => F a b).length = k * k := by
    rw [List.length_flatMap]; simp [hla, hlb]
  refine ⟨as.flatMap fun a => bs.map fun b => F a b, ?_, hlen, ?_, ?_, _, _, _, hmesh, ?_⟩
  · simp only [Sphere.toPoints, hmesh, hpts]
    apply newPoints_rows
    intro h
    rw [h] at hlen
    simp at hlen
    omega
  · intro x hx
    obtain ⟨a, -, hx⟩ := List.mem_flatMap.mp hx
    obtain ⟨b, -, rfl⟩ := List.mem_map.mp hx
    rw [Metric.mem_sphere, dist_eq_norm, add_sub_cancel_left, norm_smul, Real.norm_eq_abs, abs_of_pos hr]
    have : ‖vec3 (Real.sin a * Real.sin b) (Real.sin a * Real.cos b) (Real.cos a)‖ = 1 := by
      rw [← Real.sqrt_sq (norm_nonneg _), norm_sq3, Real.sqrt_eq_one]
      simp only [vec3]
      have h1 := Real.sin_sq_add_cos_sq a
      have h2 := Real.sin_sq_add_cos_sq b
      simp
      linear_combination Real.sin a ^ 2 * h2 + h1
    rw [this, mul_one]
  · intro h2
    have hb0 : (0 : ℝ) ∈ bs := linspace_zero_mem hk
    constructor
    · refine List.mem_flatMap.mpr ⟨0, linspace_zero_mem hk, List.mem_map.mpr ⟨0, hb0, ?_⟩⟩
      simp [F]
    · refine List.mem_flatMap.mpr ⟨Real.pi, linspace_last_mem h2, List.mem_map.mpr ⟨0, hb0, ?_⟩⟩
      ext i; fin_cases i <;> simp [F, vec3]; ring
  · refine ⟨by simp [hla], by simp [hla], by simp [hla], ?_⟩
    rintro row (h | h | h) <;> obtain ⟨a, -, rfl⟩ := List.mem_map.mp h <;> simp [hlb]

end SkSpatial
