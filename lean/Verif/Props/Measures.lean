import Verif.Props.Circle
import Verif.Props.Cylinder
import Mathlib.MeasureTheory.Measure.Lebesgue.VolumeOfBalls
import Mathlib.MeasureTheory.Constructions.Pi
/-! # C49: areas and volumes of circle, sphere and cylinder -/

namespace SkSpatial
open MeasureTheory Metric

theorem volReal_ball2 (c : E 2) {r : ℝ} (hr : 0 ≤ r) : volume.real (closedBall c r) = Real.pi * r ^ 2 := by
  rw [Measure.real, EuclideanSpace.volume_closedBall_fin_two, ENNReal.toReal_mul, ENNReal.toReal_pow,
    ENNReal.toReal_ofReal hr, ENNReal.toReal_ofReal Real.pi_pos.le, mul_comm]

theorem volReal_ball3 (c : E 3) {r : ℝ} (hr : 0 ≤ r) : volume.real (closedBall c r) = 4 / 3 * Real.pi * r ^ 3 := by
  rw [Measure.real, EuclideanSpace.volume_closedBall_fin_three, ENNReal.toReal_mul, ENNReal.toReal_pow,
    ENNReal.toReal_ofReal hr, ENNReal.toReal_ofReal (by positivity)]
  ring

theorem solidCyl_translate (p a : E 3) (r : ℝ) : solidCyl p a r = (fun x => -p + x) ⁻¹' solidCyl 0 a r := by
  ext x
  simp only [solidCyl, Set.mem_ofPred_eq, Set.mem_preimage]
  constructor
  · rintro ⟨t, w, h0, h1, h2, h3, rfl⟩
    exact ⟨t, w, h0, h1, h2, h3, by abel⟩
  · rintro ⟨t, w, h0, h1, h2, h3, h4⟩
    refine ⟨t, w, h0, h1, h2, h3, ?_⟩
    rw [show x = p + (-p + x) by abel, h4]; abel

/-- An orthonormal basis whose first vector has the direction of `a`. -/
theorem exists_basis_axis {a : E 3} (ha : a ≠ 0) : ∃ b : OrthonormalBasis (Fin 3) ℝ (E 3), a = ‖a‖ • b 0 := by
  have hn : ‖a‖ ≠ 0 := norm_ne_zero_iff.mpr ha
  have ho : Orthonormal ℝ (({0} : Set (Fin 3)).restrict (fun _ : Fin 3 => ‖a‖⁻¹ • a)) := by
    constructor
    · intro i; change ‖‖a‖⁻¹ • a‖ = 1; rw [norm_smul, norm_inv, norm_norm, inv_mul_cancel₀ hn]
    · intro i j hij; exact absurd (Subsingleton.elim i j) hij
  obtain ⟨b, hb⟩ := ho.exists_orthonormalBasis_extension_of_card_eq (by simp)
  refine ⟨b, ?_⟩
  rw [hb 0 (by simp), smul_smul, mul_inv_cancel₀ hn, one_smul]

theorem solidCyl_coords {a : E 3} (ha : a ≠ 0) (b : OrthonormalBasis (Fin 3) ℝ (E 3)) (hb : a = ‖a‖ • b 0) {r : ℝ} (hr : 0 ≤ r) :
    solidCyl 0 a r = b.repr ⁻¹' {y : E 3 | (0 ≤ y 0 ∧ y 0 ≤ ‖a‖) ∧ y 1 ^ 2 + y 2 ^ 2 ≤ r ^ 2} := by
  have hn : 0 < ‖a‖ := norm_pos_iff.mpr ha
  have hon := b.orthonormal
  have hi : ∀ i j, inner ℝ (b i) (b j) = (if i = j then 1 else 0 : ℝ) := fun i j => by
    rw [orthonormal_iff_ite.mp hon]
  have hrepr : ∀ x i, b.repr x i = inner ℝ (b i) x := fun x i => b.repr_apply_apply x i
  have hnorm : ∀ x : E 3, ‖x‖ ^ 2 = b.repr x 0 ^ 2 + b.repr x 1 ^ 2 + b.repr x 2 ^ 2 := by
    intro x
    rw [← b.repr.norm_map, EuclideanSpace.norm_sq_eq, Fin.sum_univ_three]; simp
  have hra : ∀ i, b.repr a i = if i = 0 then ‖a‖ else 0 := by
    intro i
    rw [hrepr]
    conv_lhs => rw [hb]
    rw [real_inner_smul_right, hi]; split_ifs <;> simp
  ext x
  simp only [solidCyl, Set.mem_ofPred_eq, Set.mem_preimage]
  constructor
  · rintro ⟨t, w, h0, h1, h2, h3, rfl⟩
    have hw0 : b.repr w 0 = 0 := by
      rw [hrepr]
      rw [hb, real_inner_smul_right] at h2
      rcases mul_eq_zero.mp h2 with h | h
      · exact absurd h hn.ne'
      · rw [real_inner_comm]; exact h
    have hw := hnorm w
    rw [hw0] at hw
    simp only [zero_add, map_add, map_smul, PiLp.add_apply, PiLp.smul_apply, smul_eq_mul, hra, hw0]
    simp only [if_true, Fin.isValue, Fin.reduceEq, if_false, mul_zero, zero_add, add_zero]
    refine ⟨⟨by positivity, by nlinarith⟩, ?_⟩
    have := pow_le_pow_left₀ (norm_nonneg w) h3 2
    linarith
  · rintro ⟨⟨h0, h1⟩, h2⟩
    have hd : b.repr (x - (b.repr x 0 / ‖a‖) • a) 0 = 0 := by
      simp [hra, hn.ne']
    refine ⟨b.repr x 0 / ‖a‖, x - (b.repr x 0 / ‖a‖) • a, by positivity, (div_le_one hn).mpr h1, ?_, ?_, by simp⟩
    · rw [real_inner_comm]
      conv_lhs => rw [hb]
      rw [real_inner_smul_left, ← hb, ← hrepr, hd, mul_zero]
    · apply le_of_sq_le_sq _ hr
      rw [hnorm, hd]
      simp only [map_sub, map_smul, PiLp.sub_apply, PiLp.smul_apply, smul_eq_mul, hra]
      simp only [Fin.isValue, Fin.reduceEq, if_false, mul_zero, sub_zero]
      linarith

theorem volume_box_disc (l r : ℝ) (hr : 0 ≤ r) :
    volume {y : E 3 | (0 ≤ y 0 ∧ y 0 ≤ l) ∧ y 1 ^ 2 + y 2 ^ 2 ≤ r ^ 2} =
      ENNReal.ofReal l * volume (closedBall (0 : E 2) r) := by
  have hd : closedBall (0 : E 2) r = (WithLp.ofLp) ⁻¹' {z : Fin 2 → ℝ | z 0 ^ 2 + z 1 ^ 2 ≤ r ^ 2} := by
    ext z
    rw [mem_closedBall, dist_zero_right, EuclideanSpace.norm_eq, Real.sqrt_le_left hr]
    simp [Fin.sum_univ_two]
  have hmeas : MeasurableSet {z : Fin 2 → ℝ | z 0 ^ 2 + z 1 ^ 2 ≤ r ^ 2} := by
    apply measurableSet_le <;> fun_prop
  rw [hd, (PiLp.volume_preserving_ofLp (Fin 2)).measure_preimage hmeas.nullMeasurableSet]
  have hmeas3 : MeasurableSet {y : Fin 3 → ℝ | (0 ≤ y 0 ∧ y 0 ≤ l) ∧ y 1 ^ 2 + y 2 ^ 2 ≤ r ^ 2} := by
    have m1 : MeasurableSet {y : Fin 3 → ℝ | 0 ≤ y 0} := measurableSet_le (by fun_prop) (by fun_prop)
    have m2 : MeasurableSet {y : Fin 3 → ℝ | y 0 ≤ l} := measurableSet_le (by fun_prop) (by fun_prop)
    have m3 : MeasurableSet {y : Fin 3 → ℝ | y 1 ^ 2 + y 2 ^ 2 ≤ r ^ 2} := measurableSet_le (by fun_prop) (by fun_prop)
    exact (m1.inter m2).inter m3
  have he : {y : E 3 | (0 ≤ y 0 ∧ y 0 ≤ l) ∧ y 1 ^ 2 + y 2 ^ 2 ≤ r ^ 2} =
      WithLp.ofLp ⁻¹' {y : Fin 3 → ℝ | (0 ≤ y 0 ∧ y 0 ≤ l) ∧ y 1 ^ 2 + y 2 ^ 2 ≤ r ^ 2} := rfl
  rw [he, (PiLp.volume_preserving_ofLp (Fin 3)).measure_preimage hmeas3.nullMeasurableSet]
  have he2 : {y : Fin 3 → ℝ | (0 ≤ y 0 ∧ y 0 ≤ l) ∧ y 1 ^ 2 + y 2 ^ 2 ≤ r ^ 2} =
      (MeasurableEquiv.piFinSuccAbove (fun _ : Fin 3 => ℝ) 0) ⁻¹'
        (Set.Icc 0 l ×ˢ {z : Fin 2 → ℝ | z 0 ^ 2 + z 1 ^ 2 ≤ r ^ 2}) := by
    ext y; rfl
  rw [he2, (volume_preserving_piFinSuccAbove (fun _ : Fin 3 => ℝ) 0).measure_preimage
    (measurableSet_Icc.prod hmeas).nullMeasurableSet]
  rw [Measure.volume_eq_prod, Measure.prod_prod, Real.volume_Icc, sub_zero]

/-- The Lebesgue measure of a solid cylinder. -/
theorem volReal_solidCyl (p : E 3) {a : E 3} (ha : a ≠ 0) {r : ℝ} (hr : 0 ≤ r) :
    volume.real (solidCyl p a r) = Real.pi * r ^ 2 * ‖a‖ := by
  obtain ⟨b, hb⟩ := exists_basis_axis ha
  rw [Measure.real, solidCyl_translate, measure_preimage_add, solidCyl_coords ha b hb hr]
  have hmeas3 : MeasurableSet {y : E 3 | (0 ≤ y 0 ∧ y 0 ≤ ‖a‖) ∧ y 1 ^ 2 + y 2 ^ 2 ≤ r ^ 2} := by
    have m1 : MeasurableSet {y : E 3 | 0 ≤ y 0} := measurableSet_le (by fun_prop) (by fun_prop)
    have m2 : MeasurableSet {y : E 3 | y 0 ≤ ‖a‖} := measurableSet_le (by fun_prop) (by fun_prop)
    have m3 : MeasurableSet {y : E 3 | y 1 ^ 2 + y 2 ^ 2 ≤ r ^ 2} := measurableSet_le (by fun_prop) (by fun_prop)
    exact (m1.inter m2).inter m3
  rw [b.measurePreserving_repr.measure_preimage hmeas3.nullMeasurableSet, volume_box_disc _ _ hr, ENNReal.toReal_mul,
    ENNReal.toReal_ofReal (norm_nonneg a)]
  have := volReal_ball2 0 hr
  rw [Measure.real] at this
  rw [this]; ring

/-- C49: `Circle.area` is the Lebesgue measure of the disc, and `Circle.circumference` its derivative with
respect to the radius. -/
theorem C49_circle {c : E 2} {r : ℝ} {C : Circle ℝ} (h : Circle.new (arr c) r = .ok C) :
    C.area = volume.real (closedBall c r) ∧
    HasDerivAt (fun s => volume.real (closedBall c s)) C.circumference r := by
  obtain ⟨hr, rfl⟩ := Circle.new_ok h
  refine ⟨by rw [volReal_ball2 c hr.le]; simp [Circle.area], ?_⟩
  have e : (fun s => volume.real (closedBall c s)) =ᶠ[nhds r] fun s => Real.pi * s ^ 2 := by
    filter_upwards [Ioi_mem_nhds hr] with s hs using volReal_ball2 c (le_of_lt hs)
  refine HasDerivAt.congr_of_eventuallyEq ?_ e
  have hd := ((hasDerivAt_id r).pow 2).const_mul Real.pi
  have hv : (⟨arr c, r⟩ : Circle ℝ).circumference = Real.pi * (↑2 * id r ^ (2 - 1) * 1) := by
    simp [Circle.circumference]; ring
  rw [hv]; exact hd

/-- C49: `Sphere.volume` is the Lebesgue measure of the ball, and `Sphere.surface_area` its derivative with
respect to the radius. -/
theorem C49_sphere {c : E 3} {r : ℝ} {S : Sphere ℝ} (h : Sphere.new (arr c) r = .ok S) :
    S.volume = volume.real (closedBall c r) ∧
    HasDerivAt (fun s => volume.real (closedBall c s)) S.surfaceArea r := by
  obtain ⟨hr, rfl⟩ := Sphere.new_ok h
  refine ⟨by rw [volReal_ball3 c hr.le]; simp [Sphere.volume], ?_⟩
  have e : (fun s => volume.real (closedBall c s)) =ᶠ[nhds r] fun s => 4 / 3 * Real.pi * s ^ 3 := by
    filter_upwards [Ioi_mem_nhds hr] with s hs using volReal_ball3 c (le_of_lt hs)
  refine HasDerivAt.congr_of_eventuallyEq ?_ e
  have hd := ((hasDerivAt_id r).pow 3).const_mul (4 / 3 * Real.pi)
  have hv : (⟨arr c, r⟩ : Sphere ℝ).surfaceArea = 4 / 3 * Real.pi * (↑3 * id r ^ (3 - 1) * 1) := by
    simp [Sphere.surfaceArea]; ring
  rw [hv]; exact hd

/-- C49: `Cylinder.volume` is the Lebesgue measure of the solid cylinder, `lateral_surface_area` its
derivative with respect to the radius, and `surface_area` adds the measure of two discs. -/
theorem C49_cylinder {p a : E 3} {r : ℝ} {C : Cylinder ℝ} (h : Cylinder.new (arr p) (arr a) r = .ok C) :
    C.length = ‖a‖ ∧ C.volume = volume.real (solidCyl p a r) ∧
    HasDerivAt (fun s => volume.real (solidCyl p a s)) C.lateralSurfaceArea r ∧
    C.surfaceArea = C.lateralSurfaceArea + 2 * volume.real (closedBall (0 : E 2) r) := by
  obtain ⟨ha, hr, rfl⟩ := Cylinder.new_ok h
  refine ⟨by simp [Cylinder.length], by rw [volReal_solidCyl p ha hr.le]; simp [Cylinder.volume, Cylinder.length], ?_, ?_⟩
  · have e : (fun s => volume.real (solidCyl p a s)) =ᶠ[nhds r] fun s => Real.pi * s ^ 2 * ‖a‖ := by
      filter_upwards [Ioi_mem_nhds hr] with s hs using volReal_solidCyl p ha (le_of_lt hs)
    refine HasDerivAt.congr_of_eventuallyEq ?_ e
    have hd := (((hasDerivAt_id r).pow 2).const_mul Real.pi).mul_const ‖a‖
    have hv : (⟨arr p, arr a, r⟩ : Cylinder ℝ).lateralSurfaceArea = Real.pi * (↑2 * id r ^ (2 - 1) * 1) * ‖a‖ := by
      simp [Cylinder.lateralSurfaceArea, Cylinder.length]; left; ring
    rw [hv]; exact hd
  · rw [volReal_ball2 _ hr.le]
    simp [Cylinder.surfaceArea]; ring

example : ∃ C : Cylinder ℝ, Cylinder.new (arr (vec3 1 2 3)) (arr (vec3 0 0 2)) 5 = .ok C :=
  ⟨_, Cylinder.new_arr _ (fun h => by have := congrArg (fun z : E 3 => z 2) h; simp [vec3] at this) (by norm_num)⟩
example : ∃ C : Circle ℝ, Circle.new (arr (vec2 1 2)) 5 = .ok C := ⟨_, Circle.new_arr _ (by norm_num)⟩
example : ∃ C : Sphere ℝ, Sphere.new (arr (vec3 1 2 3)) 5 = .ok C := ⟨_, Sphere.new_arr _ (by norm_num)⟩

end SkSpatial
