import Verif.Props.Vector
/-! # C13 - C17: more on vectors -/

namespace SkSpatial
open InnerProductGeometry

variable {n : ℕ}

/-! ## C13 -/

theorem angleSigned3d_arr (u v w : E 3) (hw : w ≠ 0) (h : NearParallel (crossE u v) w) :
    Vec.angleSigned3d (arr u) (arr v) (arr w) =
      .ok (Complex.arg ⟨inner ℝ u v, inner ℝ (crossE u v) w / ‖w‖⟩) := by
  simp [Vec.angleSigned3d, h, unit_arr hw, real_inner_smul_right, div_eq_inv_mul]

/-- C13: for a non-zero `w` exactly parallel to `u × v`, `angle_signed_3d` is the angle by which the
direction of `u` has to be turned about `w` (right-hand rule) to give the direction of `v`. -/
theorem C13_angle_signed_3d {u v w : E 3} (hu : u ≠ 0) (hv : v ≠ 0) (hw : w ≠ 0) (k : ℝ)
    (hk : crossE u v = k • w) :
    ∃ θ : ℝ, Vec.angleSigned3d (arr u) (arr v) (arr w) = .ok θ ∧ -Real.pi < θ ∧ θ ≤ Real.pi ∧
      Vec.angleBetween (arr u) (arr v) = .ok |θ| ∧
      (0 < k ↔ 0 < θ ∧ θ < Real.pi) ∧ (k < 0 ↔ θ < 0) ∧
      ‖v‖⁻¹ • v = Real.cos θ • ‖u‖⁻¹ • u + Real.sin θ • crossE (‖w‖⁻¹ • w) (‖u‖⁻¹ • u) ∧
      (θ ≠ Real.pi → Vec.angleSigned3d (arr u) (arr v) (arr (-w)) = .ok (-θ)) ∧
      (θ = Real.pi → Vec.angleSigned3d (arr u) (arr v) (arr (-w)) = .ok Real.pi) := by
  have hwn : 0 < ‖w‖ := norm_pos_iff.mpr hw
  have hun : 0 < ‖u‖ := norm_pos_iff.mpr hu
  have hvn : 0 < ‖v‖ := norm_pos_iff.mpr hv
  have hnear : ∀ s : ℝ, s ≠ 0 → NearParallel (crossE u v) (s • w) := by
    intro s hs
    by_cases hk0 : k = 0
    · left; rw [hk, hk0, zero_smul]
    · right; right
      have : |cosE (crossE u v) (s • w)| = 1 := by
        rw [hk, cosE, norm_smul, norm_smul, real_inner_smul_left, real_inner_smul_right,
          real_inner_self_eq_norm_sq, abs_div, abs_mul, abs_mul]
        simp only [Real.norm_eq_abs, abs_mul, abs_abs, abs_norm, abs_pow]
        have := abs_pos.mpr hk0
        have := abs_pos.mpr hs
        field_simp
      rw [this]; norm_num
  have h1 : NearParallel (crossE u v) w := by simpa using hnear 1 one_ne_zero
  have h2 : NearParallel (crossE u v) (-w) := by simpa using hnear (-1) (by norm_num)
  have hy : (inner ℝ (crossE u v) w : ℝ) / ‖w‖ = k * ‖w‖ := by
    rw [hk, real_inner_smul_left, real_inner_self_eq_norm_sq]; field_simp
  set z : ℂ := ⟨inner ℝ u v, k * ‖w‖⟩ with hz
  have hval : Vec.angleSigned3d (arr u) (arr v) (arr w) = .ok z.arg := by
    rw [angleSigned3d_arr u v w hw h1, hy]
  have hval' : Vec.angleSigned3d (arr u) (arr v) (arr (-w)) = .ok (starRingEnd ℂ z).arg := by
    rw [angleSigned3d_arr u v (-w) (neg_ne_zero.mpr hw) h2, inner_neg_right, norm_neg, neg_div, hy]
    congr 2
  have hcs : (k * ‖w‖) ^ 2 = ‖u‖ ^ 2 * ‖v‖ ^ 2 - (inner ℝ u v : ℝ) ^ 2 := by
    rw [← crossE_norm_sq, hk, norm_smul, mul_pow, mul_pow, Real.norm_eq_abs, sq_abs]
  have hzn : ‖z‖ = ‖u‖ * ‖v‖ := by
    rw [← Real.sqrt_sq (norm_nonneg z), ← Complex.normSq_eq_norm_sq, Complex.normSq_apply,
      ← Real.sqrt_sq (mul_nonneg hun.le hvn.le), hz]
    congr 1
    simp only
    linear_combination hcs
  have hz0 : z ≠ 0 := by rw [← norm_ne_zero_iff, hzn]; positivity
  have hc : ‖u‖ * ‖v‖ * Real.cos z.arg = inner ℝ u v := by
    rw [← hzn, Complex.norm_mul_cos_arg]
  have hs : ‖u‖ * ‖v‖ * Real.sin z.arg = k * ‖w‖ := by
    rw [← hzn, Complex.norm_mul_sin_arg]
  refine ⟨z.arg, hval, Complex.neg_pi_lt_arg z, Complex.arg_le_pi z, ?_, ?_, ?_, ?_, ?_, ?_⟩
  · rw [angleBetween_arr hu hv, abs_arg_eq_of_cos hz0 (angle_nonneg u v) (angle_le_pi u v)]
    rw [hzn, mul_comm, cos_angle_mul_norm_mul_norm]
  · constructor
    · intro hk0
      have hsin : 0 < Real.sin z.arg := by
        have : 0 < ‖u‖ * ‖v‖ * Real.sin z.arg := by rw [hs]; positivity
        exact (mul_pos_iff_of_pos_left (by positivity)).mp this
      have hle := Complex.arg_le_pi z
      refine ⟨?_, ?_⟩
      · by_contra hneg
        have := Real.sin_nonpos_of_nonpos_of_neg_pi_le (not_lt.mp hneg) (Complex.neg_pi_lt_arg z).le
        linarith
      · rcases hle.lt_or_eq with h | h
        · exact h
        · rw [h, Real.sin_pi] at hsin; exact absurd hsin (lt_irrefl _)
    · rintro ⟨ha, hb⟩
      have := Real.sin_pos_of_pos_of_lt_pi ha hb
      have h3 : 0 < k * ‖w‖ := by rw [← hs]; positivity
      exact (mul_pos_iff_of_pos_right hwn).mp h3
  · rw [Complex.arg_neg_iff, hz]
    simp only
    constructor
    · intro h; exact mul_neg_of_neg_of_pos h hwn
    · intro h; by_contra hc'; have := mul_nonneg (not_lt.mp hc') hwn.le; linarith
  · -- the rotation formula, via (w × u) = (1/k) (u × v) × u, or from the coordinates
    have key : (‖u‖ ^ 2) • v = (inner ℝ u v : ℝ) • u + crossE (crossE u v) u := by
      ext i
      fin_cases i <;> simp [crossE, vec3, norm_sq3, inner3] <;> ring
    have e1 : crossE (k • w) u = (k * ‖w‖) • crossE (‖w‖⁻¹ • w) u := by
      ext i
      fin_cases i <;> simp [crossE, vec3] <;> field_simp
    have e2 : crossE (‖w‖⁻¹ • w) (‖u‖⁻¹ • u) = ‖u‖⁻¹ • crossE (‖w‖⁻¹ • w) u := by
      ext i
      fin_cases i <;> simp [crossE, vec3] <;> ring
    rw [hk, e1, ← hc, ← hs] at key
    rw [e2]
    have : ‖v‖⁻¹ • v = (‖v‖⁻¹ * (‖u‖ ^ 2)⁻¹) • (‖u‖ ^ 2) • v := by
      rw [smul_smul]; congr 1; field_simp
    rw [this, key, smul_add, smul_smul, smul_smul, smul_smul, smul_smul]
    congr 2 <;> field_simp
  · intro hne; rw [hval', Complex.arg_conj, if_neg hne]
  · intro he; rw [hval', Complex.arg_conj, if_pos he]

/-- C13: in every case the call succeeds exactly when `w` is non-zero and accepted as parallel to
`u × v`; the result then has the sign of the component of `u × v` along `w`. -/
theorem C13_angle_signed_3d_accepts (u v w : E 3) :
    (w ≠ 0 ∧ NearParallel (crossE u v) w → ∃ θ : ℝ,
      Vec.angleSigned3d (arr u) (arr v) (arr w) = .ok θ ∧ -Real.pi < θ ∧ θ ≤ Real.pi ∧
      (θ < 0 ↔ (inner ℝ (crossE u v) w : ℝ) < 0)) ∧
    (¬ (w ≠ 0 ∧ NearParallel (crossE u v) w) →
      ∃ msg, Vec.angleSigned3d (arr u) (arr v) (arr w) = .error (.valueError msg)) := by
  constructor
  · rintro ⟨hw, h⟩
    refine ⟨_, angleSigned3d_arr u v w hw h, Complex.neg_pi_lt_arg _, Complex.arg_le_pi _, ?_⟩
    rw [Complex.arg_neg_iff]
    have hwn : 0 < ‖w‖ := norm_pos_iff.mpr hw
    exact div_neg_iff.trans ⟨fun h => h.elim (fun h => absurd h.2 hwn.not_gt) (fun h => h.1),
      fun h => Or.inr ⟨h, hwn⟩⟩
  · intro h
    by_cases hp : NearParallel (crossE u v) w
    · have hw : w = 0 := by by_contra hw; exact h ⟨hw, hp⟩
      subst hw
      exact ⟨_, by simp [Vec.angleSigned3d, hp, unit_arr_zero]; rfl⟩
    · exact ⟨_, by simp [Vec.angleSigned3d, hp]; rfl⟩

/-- C13: vectors that are not all 3D raise `ValueError`. -/
theorem C13_angle_signed_3d_dimension {m p : ℕ} [NeZero n] [NeZero m] [NeZero p] (u : E n) (v : E m)
    (w : E p) (h : ¬ (n = 3 ∧ m = 3 ∧ p = 3)) :
    ∃ msg, Vec.angleSigned3d (arr u) (arr v) (arr w) = .error (.valueError msg) := by
  refine ⟨"The vectors must be 3D.", ?_⟩
  simp only [Vec.angleSigned3d, new1D_arr, ok_bind, length_arr]
  rw [if_pos]
  by_cases h1 : n = 3 <;> by_cases h2 : m = 3 <;> by_cases h3 : p = 3 <;> simp_all

example : crossE (vec3 1 0 0) (vec3 0 1 0) = (2 : ℝ)⁻¹ • vec3 0 0 2 := by
  ext i; fin_cases i <;> simp [crossE, vec3]

/-! ## C14 -/

theorem cosE_comm (x y : E n) : cosE x y = cosE y x := by
  simp [cosE, real_inner_comm, mul_comm]

theorem abs_cosE_smul_left {c : ℝ} (hc : c ≠ 0) (x y : E n) : |cosE (c • x) y| = |cosE x y| := by
  have : |c| ≠ 0 := abs_ne_zero.mpr hc
  simp only [cosE, real_inner_smul_left, norm_smul, Real.norm_eq_abs, abs_div, abs_mul, abs_abs]
  rw [mul_assoc, mul_div_mul_left _ _ this]

theorem abs_cosE_self_smul {c : ℝ} (hc : c ≠ 0) {x : E n} (hx : x ≠ 0) : |cosE x (c • x)| = 1 := by
  have h1 : |c| ≠ 0 := abs_ne_zero.mpr hc
  have h2 : ‖x‖ ≠ 0 := norm_ne_zero_iff.mpr hx
  simp only [cosE, real_inner_smul_right, norm_smul, Real.norm_eq_abs, abs_div, abs_mul, abs_abs,
    real_inner_self_eq_norm_sq, abs_pow, abs_norm]
  field_simp

theorem nearParallel_smul {x : E n} (c : ℝ) : NearParallel x (c • x) := by
  by_cases hx : x = 0
  · left; exact hx
  · by_cases hc : c = 0
    · right; left; simp [hc]
    · right; right; rw [abs_cosE_self_smul hc hx]; norm_num

theorem nearParallel_comm {x y : E n} : NearParallel x y ↔ NearParallel y x := by
  unfold NearParallel; rw [cosE_comm]; tauto

theorem nearParallel_smul_left {x y : E n} {c : ℝ} (hc : c ≠ 0) :
    NearParallel (c • x) y ↔ NearParallel x y := by
  unfold NearParallel
  rw [abs_cosE_smul_left hc]; simp [hc]

theorem nearParallel_of_dependent {x y : E n} (h : ExactParallel x y) : NearParallel x y := by
  unfold ExactParallel at h
  rw [LinearIndependent.pair_iff] at h
  push Not at h
  obtain ⟨a, b, hab, hne⟩ := h
  by_cases hb : b = 0
  · have ha : a ≠ 0 := fun ha => hne ha hb
    subst hb
    left
    simpa [ha] using hab
  · have : y = (-a / b) • x := by
      have h1 : b • y = (-a) • x := by rw [neg_smul]; exact eq_neg_of_add_eq_zero_right hab
      rw [div_eq_inv_mul, ← smul_smul, ← h1, smul_smul, inv_mul_cancel₀ hb, one_smul]
    rw [this]; exact nearParallel_smul _

open Classical in
/-- C14: `is_perpendicular`, for the default and for all other tolerances. -/
theorem C14_is_perpendicular (x y : E n) (tol : Tol ℝ) :
    Vec.isPerpendicular Tol.default (arr x) (arr y) = .ok (decide ((inner ℝ x y : ℝ) = 0)) ∧
    (tol.Nonneg → tol.rel < 1 →
      Vec.isPerpendicular tol (arr x) (arr y) = .ok (decide (|(inner ℝ x y : ℝ)| ≤ tol.abs))) ∧
    (¬ tol.Nonneg → ∃ msg, Vec.isPerpendicular tol (arr x) (arr y) = .error (.valueError msg)) := by
  refine ⟨isPerpendicular_default_arr x y, ?_, ?_⟩
  · intro h h1
    rw [isPerpendicular_arr h]; simp [close_zero h h1]
  · intro h
    exact ⟨_, by simp [Vec.isPerpendicular, isclose_neg h]; rfl⟩

open Classical in
/-- C14: `is_parallel` with the default tolerances. -/
theorem C14_is_parallel [NeZero n] (x y : E n) :
    Vec.isParallel Tol.default (arr x) (arr y) =
      .ok (decide (x = 0 ∨ y = 0 ∨ 1 - 1 / 1000000000 ≤ |Real.cos (angle x y)|)) ∧
    (ExactParallel x y → Vec.isParallel Tol.default (arr x) (arr y) = .ok true) ∧
    Vec.isParallel Tol.default (arr y) (arr x) = Vec.isParallel Tol.default (arr x) (arr y) ∧
    (∀ c d : ℝ, c ≠ 0 → d ≠ 0 → Vec.isParallel Tol.default (arr (c • x)) (arr (d • y)) =
      Vec.isParallel Tol.default (arr x) (arr y)) ∧
    (x ≠ 0 → y ≠ 0 → Vec.isParallel Tol.default (arr x) (arr y) = .ok true →
      Real.sin (angle x y) < 45 / 1000000) := by
  refine ⟨?_, ?_, ?_, ?_, ?_⟩
  · rw [isParallel_default_arr]; simp only [NearParallel, cosE_eq_cos]
  · intro h; simp [nearParallel_of_dependent h]
  · simp only [isParallel_default_arr, nearParallel_comm (x := y)]
  · intro c d hc hd
    simp only [isParallel_default_arr]
    rw [nearParallel_smul_left hc, nearParallel_comm, nearParallel_smul_left hd, nearParallel_comm]
  · intro hx hy h
    simp only [isParallel_default_arr, Except.ok.injEq, decide_eq_true_eq, NearParallel, hx, hy,
      false_or, cosE_eq_cos] at h
    have h1 := Real.sin_sq_add_cos_sq (angle x y)
    have h2 : (1 - 1 / 1000000000 : ℝ) ^ 2 ≤ Real.cos (angle x y) ^ 2 := by
      rw [← sq_abs (Real.cos _)]
      exact pow_le_pow_left₀ (by norm_num) h 2
    have h3 : Real.sin (angle x y) ^ 2 < (45 / 1000000) ^ 2 := by
      have : (1 - 1 / 1000000000 : ℝ) ^ 2 > 1 - (45 / 1000000) ^ 2 := by norm_num
      linarith
    exact lt_of_pow_lt_pow_left₀ 2 (by norm_num) h3

/-- C14: tolerances outside `[0, 1)`: with `rel_tol ≥ 1` both predicates hold for every pair, and a negative
tolerance makes both raise (`math.isclose` refuses it). -/
theorem C14_extreme_tolerances [NeZero n] (x y : E n) (tol : Tol ℝ) :
    (tol.Nonneg → 1 ≤ tol.rel → Vec.isPerpendicular tol (arr x) (arr y) = .ok true ∧
      Vec.isParallel tol (arr x) (arr y) = .ok true) ∧
    (¬ tol.Nonneg → (∃ msg, Vec.isPerpendicular tol (arr x) (arr y) = .error (.valueError msg)) ∧
      ∃ msg, Vec.isParallel tol (arr x) (arr y) = .error (.valueError msg)) := by
  classical
  constructor
  · intro h h1
    have hc : ∀ a : ℝ, Close tol a 0 := by
      intro a
      simp only [Close, sub_zero, abs_zero]
      refine le_max_of_le_left ?_
      rw [max_eq_left (abs_nonneg a)]
      nlinarith [abs_nonneg a]
    refine ⟨?_, ?_⟩
    · rw [isPerpendicular_arr h]; simp [hc]
    · rw [isParallel_arr h]; simp [ParallelTol, hc]
  · intro h
    exact ⟨⟨_, by simp [Vec.isPerpendicular, isclose_neg h]; rfl⟩,
      ⟨_, by simp [Vec.isParallel, Vec.isZero, isclose_neg h]; rfl⟩⟩

/-- `C14_extreme_tolerances` has both kinds of instances. -/
example : (∃ tol : Tol ℝ, tol.Nonneg ∧ 1 ≤ tol.rel) ∧ ∃ tol : Tol ℝ, ¬ tol.Nonneg :=
  ⟨⟨⟨1, 0⟩, by norm_num [Tol.Nonneg], le_rfl⟩, ⟨⟨-1, 0⟩, by norm_num [Tol.Nonneg]⟩⟩

open Classical in
/-- C14: `is_parallel` with general tolerances: a vector with `|v|² ≤ abs_tol` counts as zero, otherwise
`|cos|` is compared with 1. -/
theorem C14_is_parallel_tol [NeZero n] (x y : E n) (tol : Tol ℝ) (h : tol.Nonneg) (h1 : tol.rel < 1) :
    Vec.isParallel tol (arr x) (arr y) =
      .ok (decide (‖x‖ ^ 2 ≤ tol.abs ∨ ‖y‖ ^ 2 ≤ tol.abs ∨
        1 - max tol.rel tol.abs ≤ |Real.cos (angle x y)|)) := by
  rw [isParallel_arr h]
  congr 2
  unfold ParallelTol
  rw [close_zero h h1, close_zero h h1, abs_of_nonneg (by positivity), abs_of_nonneg (by positivity),
    cosE_eq_cos]
  have h3 := Real.abs_cos_le_one (angle x y)
  have : Close tol |Real.cos (angle x y)| 1 ↔ 1 - max tol.rel tol.abs ≤ |Real.cos (angle x y)| := by
    unfold Close
    rw [abs_of_nonpos (by linarith : |Real.cos (angle x y)| - 1 ≤ 0), abs_abs, abs_one, max_eq_right h3,
      mul_one]
    constructor <;> intro h <;> linarith
  rw [this]

/-- C14: accepted parallelism is not transitive, even for non-zero vectors. -/
theorem C14_is_parallel_not_transitive : ∃ x y z : E 2, x ≠ 0 ∧ y ≠ 0 ∧ z ≠ 0 ∧
    Vec.isParallel Tol.default (arr x) (arr y) = .ok true ∧
    Vec.isParallel Tol.default (arr y) (arr z) = .ok true ∧
    Vec.isParallel Tol.default (arr x) (arr z) = .ok false := by
  have hne : ∀ s : ℝ, vec2 1 s ≠ 0 := by
    intro s h
    have := congrFun (congrArg WithLp.ofLp h) 0
    simp [vec2] at this
  have hcos : ∀ s t : ℝ, cosE (vec2 1 s) (vec2 1 t) =
      (1 + s * t) / (Real.sqrt (1 + s ^ 2) * Real.sqrt (1 + t ^ 2)) := by
    intro s t
    have : ∀ s, ‖vec2 1 s‖ = Real.sqrt (1 + s ^ 2) := by
      intro s; rw [← Real.sqrt_sq (norm_nonneg _), norm_sq2]; simp [vec2]
    rw [cosE, this, this, inner2]; simp [vec2]
  set ε : ℝ := 4 / 100000 with hε
  have hsq : Real.sqrt (1 + (-ε) ^ 2) = Real.sqrt (1 + ε ^ 2) := by rw [neg_sq]
  have hs1 : Real.sqrt (1 + ε ^ 2) ≤ 1 + 9 / 10000000000 := by
    rw [Real.sqrt_le_left (by norm_num)]; norm_num [hε]
  have hs0 : 0 < Real.sqrt (1 + ε ^ 2) := by positivity
  have key : (1 : ℝ) - 1 / 1000000000 ≤ 1 / Real.sqrt (1 + ε ^ 2) := by
    rw [le_div_iff₀ hs0]
    calc (1 - 1 / 1000000000) * Real.sqrt (1 + ε ^ 2) ≤ (1 - 1 / 1000000000) * (1 + 9 / 10000000000) := by
          apply mul_le_mul_of_nonneg_left hs1; norm_num
      _ ≤ 1 := by norm_num
  refine ⟨vec2 1 (-ε), vec2 1 0, vec2 1 ε, hne _, hne _, hne _, ?_, ?_, ?_⟩
  · have : NearParallel (vec2 1 (-ε)) (vec2 1 0) := by
      right; right
      rw [hcos, hsq]; simp only [mul_zero, add_zero, ne_eq, OfNat.ofNat_ne_zero, not_false_eq_true,
        zero_pow, Real.sqrt_one, mul_one]
      rw [abs_of_nonneg (by positivity)]; exact key
    simp [this]
  · have : NearParallel (vec2 1 0) (vec2 1 ε) := by
      right; right
      rw [hcos]; simp only [zero_mul, add_zero, ne_eq, OfNat.ofNat_ne_zero, not_false_eq_true,
        zero_pow, Real.sqrt_one, one_mul]
      rw [abs_of_nonneg (by positivity)]; exact key
    simp [this]
  · have : ¬ NearParallel (vec2 1 (-ε)) (vec2 1 ε) := by
      rintro (h | h | h)
      · exact hne _ h
      · exact hne _ h
      · rw [hcos, hsq, Real.mul_self_sqrt (by positivity), abs_of_nonneg (by norm_num [hε])] at h
        norm_num [hε] at h
    simp [this]

example : ExactParallel (vec2 1 2) ((3 : ℝ) • vec2 1 2) := by
  unfold ExactParallel
  rw [LinearIndependent.pair_iff]; push Not
  refine ⟨3, -1, by simp, by norm_num⟩

/-! ## C15 -/

theorem sideVector_arr (u v : E 2) : ∃ s : ℤ, Vec.sideVector (arr u) (arr v) = .ok s ∧
    (s : ℝ) = SignType.sign (u 1 * v 0 - u 0 * v 1) ∧ (s = 1 ↔ 0 < u 1 * v 0 - u 0 * v 1) ∧
      (s = -1 ↔ u 1 * v 0 - u 0 * v 1 < 0) ∧ (s = 0 ↔ u 1 * v 0 - u 0 * v 1 = 0) := by
  have h1 := setDimension3_arr u (by norm_num)
  have h2 := setDimension3_arr v (by norm_num)
  have e : cross3 (arr (pad3 v)) (arr (pad3 u)) = .ok [0, 0, v 0 * u 1 - v 1 * u 0] := by
    rw [cross3_arr, arr3]; simp [crossE, vec3, padTo]
  have hE : Vec.sideVector (arr u) (arr v) = intSign (v 0 * u 1 - v 1 * u 0) := by
    simp [Vec.sideVector, h1, h2]
    have := cross3_arr (pad3 v) (pad3 u)
    rw [e] at this
    rw [Except.ok.inj this.symm]
  rw [hE]
  have hring : v 0 * u 1 - v 1 * u 0 = u 1 * v 0 - u 0 * v 1 := by ring
  rw [hring]
  set d := u 1 * v 0 - u 0 * v 1
  rcases lt_trichotomy d 0 with h | h | h
  · exact ⟨-1, by simp [intSign, h, h.not_gt], by simp [sign_neg h], by simp [h.le], by simp [h], by simp [h.ne]⟩
  · exact ⟨0, by simp [intSign, h], by simp [h], by simp [h], by simp [h], by simp [h]⟩
  · exact ⟨1, by simp [intSign, h], by simp [sign_pos h], by simp [h], by simp [h.le], by simp [h.ne']⟩

/-- C15: `side_vector` is 1 / -1 / 0 according to the sign of `u_y v_x - u_x v_y`; i.e. it is `1` exactly
if `v` is obtained by turning `u` clockwise by an angle in `(0, π)`, `-1` exactly if counter-clockwise. -/
theorem C15_side_vector (u v : E 2) :
    ∃ s : ℤ, Vec.sideVector (arr u) (arr v) = .ok s ∧
      (s = 1 ↔ 0 < u 1 * v 0 - u 0 * v 1) ∧ (s = -1 ↔ u 1 * v 0 - u 0 * v 1 < 0) ∧
      (s = 0 ↔ ExactParallel u v) ∧
      (∃ θ : ℝ, Vec.angleSigned (arr u) (arr v) = .ok θ ∧ (s = 1 ↔ θ < 0) ∧
        (s = -1 ↔ 0 < θ ∧ θ < Real.pi)) ∧
      Vec.sideVector (arr v) (arr u) = .ok (-s) ∧
      (∀ a b : ℝ, 0 < a → 0 < b → Vec.sideVector (arr (a • u)) (arr (b • v)) = .ok s) := by
  obtain ⟨s, h0, hs, h1, h2, h3⟩ := sideVector_arr u v
  have hinj : ∀ a b : ℤ, (a : ℝ) = b → a = b := fun a b h => by exact_mod_cast h
  refine ⟨s, h0, h1, h2, ?_, ⟨_, angleSigned_arr u v, ?_, ?_⟩, ?_, ?_⟩
  · rw [h3]
    unfold ExactParallel
    rw [LinearIndependent.pair_iff]
    constructor
    · intro h hli
      by_cases hu : u 0 = 0 ∧ u 1 = 0
      · have hu0 : u = 0 := by ext i; fin_cases i <;> simp [hu.1, hu.2]
        have := (hli 1 0 (by simp [hu0])).1
        norm_num at this
      · have a1 := hli (v 0) (-u 0) (by
          ext i; fin_cases i
          · simp; ring
          · simp; linear_combination h)
        have a2 := hli (v 1) (-u 1) (by
          ext i; fin_cases i
          · simp; linear_combination -h
          · simp; ring)
        exact hu ⟨by simpa using a1.2, by simpa using a2.2⟩
    · intro h
      push Not at h
      obtain ⟨a, b, hab, hne⟩ := h
      have e0 := congrFun (congrArg WithLp.ofLp hab) 0
      have e1 := congrFun (congrArg WithLp.ofLp hab) 1
      simp at e0 e1
      by_cases ha : a = 0
      · have hb := hne ha
        simp [ha, hb] at e0 e1
        simp [e0, e1]
      · apply mul_left_cancel₀ ha; linear_combination (v 0) * e1 - (v 1) * e0
  · rw [h1, Complex.arg_neg_iff]; simp only
    constructor <;> intro h <;> linarith
  · rw [h2]
    have hz : ∀ z : ℂ, 0 < z.im ↔ 0 < z.arg ∧ z.arg < Real.pi := by
      intro z
      constructor
      · intro h
        have a1 := Complex.arg_nonneg_iff.mpr h.le
        have a2 := Complex.arg_le_pi z
        refine ⟨lt_of_le_of_ne a1 fun h0 => ?_, lt_of_le_of_ne a2 fun h0 => ?_⟩
        · rw [eq_comm, Complex.arg_eq_zero_iff] at h0; linarith [h0.2]
        · rw [Complex.arg_eq_pi_iff] at h0; linarith [h0.2]
      · rintro ⟨a1, a2⟩
        have b1 := Complex.arg_nonneg_iff.mp a1.le
        rcases b1.lt_or_eq with h | h
        · exact h
        · exfalso
          rcases le_or_gt 0 z.re with hr | hr
          · exact a1.ne' (Complex.arg_eq_zero_iff.mpr ⟨hr, h.symm⟩)
          · exact a2.ne (Complex.arg_eq_pi_iff.mpr ⟨hr, h.symm⟩)
    rw [← hz]; simp only
    constructor <;> intro h <;> linarith
  · obtain ⟨t, g0, ht, -⟩ := sideVector_arr v u
    rw [g0]; congr 1
    apply hinj
    push_cast
    rw [ht, hs]
    rw [show v 1 * u 0 - v 0 * u 1 = -(u 1 * v 0 - u 0 * v 1) by ring, Left.sign_neg]
    push_cast; rfl
  · intro a b ha hb
    obtain ⟨t, g0, ht, -⟩ := sideVector_arr (a • u) (b • v)
    rw [g0]; congr 1
    apply hinj
    rw [ht, hs]
    simp only [PiLp.smul_apply, smul_eq_mul]
    rw [show a * u 1 * (b * v 0) - a * u 0 * (b * v 1) = (a * b) * (u 1 * v 0 - u 0 * v 1) by ring,
      sign_mul, sign_pos (mul_pos ha hb), one_mul]

/-- C15: other dimensions raise `ValueError`. -/
theorem C15_side_vector_dimension {m : ℕ} [NeZero n] [NeZero m] (u : E n) (v : E m)
    (h : ¬ (n = 2 ∧ m = 2)) : ∃ msg, Vec.sideVector (arr u) (arr v) = .error (.valueError msg) := by
  refine ⟨"The vectors must be 2D.", ?_⟩
  simp only [Vec.sideVector, new1D_arr, ok_bind, length_arr]
  rw [if_pos (by tauto)]

/-! ## C16 -/

/-- C16: `project_vector` is the orthogonal projection on the span of `u`. -/
theorem C16_project_vector {u : E n} (hu : u ≠ 0) (v : E n) :
    ∃ p : E n, Vec.projectVector (arr u) (arr v) = .ok (arr p) ∧
      (∃ c : ℝ, p = c • u) ∧ inner ℝ (v - p) u = (0 : ℝ) ∧
      (∀ c : ℝ, ‖v - p‖ ≤ ‖v - c • u‖) ∧ (∀ c : ℝ, ‖v - c • u‖ = ‖v - p‖ → c • u = p) ∧
      Vec.projectVector (arr u) (arr p) = .ok (arr p) ∧
      (∃ s : ℝ, Vec.scalarProjection (arr u) (arr v) = .ok s ∧ ‖p‖ = |s| ∧ p = (s / ‖u‖) • u) ∧
      ‖p‖ ≤ ‖v‖ := by
  have hun : ‖u‖ ≠ 0 := norm_ne_zero_iff.mpr hu
  set k : ℝ := inner ℝ u v / ‖u‖ ^ 2 with hk
  have hperp : inner ℝ (v - k • u) u = (0 : ℝ) := by
    rw [inner_sub_left, real_inner_smul_left, real_inner_self_eq_norm_sq, hk, real_inner_comm]
    field_simp; ring
  have hpyth : ∀ c : ℝ, ‖v - c • u‖ ^ 2 = ‖v - k • u‖ ^ 2 + ((k - c) * ‖u‖) ^ 2 := by
    intro c
    have : v - c • u = (v - k • u) + (k - c) • u := by rw [sub_smul]; abel
    rw [this, norm_add_sq_real, real_inner_smul_right, hperp, norm_smul, mul_pow, mul_pow,
      Real.norm_eq_abs, sq_abs]; ring
  refine ⟨k • u, projectVector_arr u v, ⟨k, rfl⟩, hperp, ?_, ?_, ?_, ?_, ?_⟩
  · intro c
    apply le_of_sq_le_sq _ (norm_nonneg _)
    rw [hpyth c]; nlinarith [sq_nonneg ((k - c) * ‖u‖)]
  · intro c hc
    have := hpyth c
    rw [hc] at this
    have h0 : (k - c) * ‖u‖ = 0 := by
      apply pow_eq_zero_iff (two_ne_zero) |>.mp; linarith
    have : k = c := by
      rcases mul_eq_zero.mp h0 with h | h
      · linarith
      · exact absurd h hun
    rw [this]
  · rw [projectVector_arr]
    rw [real_inner_smul_right, real_inner_self_eq_norm_sq]
    congr 3; field_simp
  · refine ⟨‖u‖⁻¹ * inner ℝ u v, ?_, ?_, ?_⟩
    · simp [Vec.scalarProjection, unit_arr hu, real_inner_smul_left]
    · rw [norm_smul, hk, abs_mul, Real.norm_eq_abs, abs_div, abs_inv, abs_norm, abs_pow, abs_norm]
      field_simp
    · rw [hk]; congr 1; field_simp
  · have h0 := hpyth 0
    simp only [zero_smul, sub_zero] at h0
    apply le_of_sq_le_sq _ (norm_nonneg _)
    rw [norm_smul, mul_pow, Real.norm_eq_abs, sq_abs, ← mul_pow, h0]
    nlinarith [sq_nonneg ‖v - k • u‖]

open XReal in
/-- C16: projecting on the zero vector gives NaN in every coordinate, without an exception. -/
theorem C16_project_vector_zero (v : E n) :
    Vec.projectVector ((arr (0 : E n)).map fin) ((arr v).map fin) = .ok (List.replicate n nan) := by
  have hz : (arr (0 : E n)).map fin = List.replicate n (fin 0) := by
    apply List.ext_getElem <;> simp [arr]
  rw [hz]
  have hd1 : dotv (List.replicate n (fin 0)) ((arr v).map fin) = fin 0 := by
    have : List.replicate n (fin 0) = (arr (0 : E n)).map fin := hz.symm
    rw [this, xdotv]; simp
  have hd2 : dotv (List.replicate n (fin 0)) (List.replicate n (fin 0)) = fin 0 := by
    have : List.replicate n (fin 0) = (arr (0 : E n)).map fin := hz.symm
    rw [this, xdotv]; simp
  simp only [Vec.projectVector, dot, hd1, hd2, smul, List.length_replicate, List.length_map, length_arr,
    if_true, ok_bind, pure_ok, List.map_replicate]
  congr 2
  show XReal.mul (XReal.div (fin 0) (fin 0)) (fin 0) = nan
  simp [XReal.div, XReal.ofSign, XReal.mul, XReal.sgn]

/-! ## C17 -/

theorem basisVec_eq (i : Fin n) : (Vec.basisVec n i : List ℝ) = arr (EuclideanSpace.single i 1) := by
  apply List.ext_getElem
  · simp [Vec.basisVec]
  · intro j h1 h2
    simp [Vec.basisVec] at h1
    simp [Vec.basisVec, arr, Fin.ext_iff]

theorem cosE_single (x : E n) (i : Fin n) : cosE x (EuclideanSpace.single i 1) = x i / ‖x‖ := by
  rw [cosE, real_inner_comm, EuclideanSpace.inner_single_left]; simp

open Classical in
/-- C17, dimension at least two: a coordinate vector that is not parallel to `x`. -/
theorem C17_different_direction (hn : 2 ≤ n) {x : E n} (hx : x ≠ 0) :
    ∃ i : Fin n, Vec.differentDirection Tol.default (arr x) = .ok (arr (EuclideanSpace.single i 1)) ∧
      Vec.isParallel Tol.default (arr x) (arr (EuclideanSpace.single i 1)) = .ok false ∧
      LinearIndependent ℝ ![x, EuclideanSpace.single i 1] := by
  obtain ⟨m, rfl⟩ : ∃ m, n = m + 2 := ⟨n - 2, by omega⟩
  have hxn : 0 < ‖x‖ := norm_pos_iff.mpr hx
  have hres : Vec.differentDirection Tol.default (arr x) =
      .ok (arr (EuclideanSpace.single (if NearParallel x (EuclideanSpace.single 0 1) then (1 : Fin (m + 2)) else 0) 1)) := by
    have hb0 : (Vec.basisVec (m + 2) 0 : List ℝ) = arr (EuclideanSpace.single (0 : Fin (m + 2)) 1) :=
      basisVec_eq (0 : Fin (m + 2))
    have hb1 : (Vec.basisVec (m + 2) 1 : List ℝ) = arr (EuclideanSpace.single (1 : Fin (m + 2)) 1) :=
      basisVec_eq (1 : Fin (m + 2))
    unfold Vec.differentDirection
    simp only [isZero_default_arr, hx, decide_false, ok_bind, Bool.false_eq_true, if_false]
    split
    · next h => have := congrArg List.length h; simp at this
    · simp only [length_arr, hb0, hb1, new1D_arr, ok_bind, isParallel_default_arr, pure_ok]
      by_cases h : NearParallel x (EuclideanSpace.single 0 1) <;> simp [h]
  have hsq : x 0 ^ 2 + x 1 ^ 2 ≤ ‖x‖ ^ 2 := by
    rw [EuclideanSpace.norm_sq_eq]
    have h01 : ({0, 1} : Finset (Fin (m + 2))) ⊆ Finset.univ := Finset.subset_univ _
    have := Finset.sum_le_sum_of_subset_of_nonneg (f := fun i => ‖x i‖ ^ 2) h01
      (fun i _ _ => by positivity)
    rw [Finset.sum_pair (by simp)] at this
    simpa [sq_abs] using this
  have hnot : ¬ NearParallel x (EuclideanSpace.single
      (if NearParallel x (EuclideanSpace.single 0 1) then (1 : Fin (m + 2)) else 0) (1 : ℝ)) := by
    by_cases h : NearParallel x (EuclideanSpace.single 0 1)
    · simp only [h, if_true]
      rintro (h1 | h1 | h1)
      · exact hx h1
      · simp at h1
      · rcases h with h | h | h
        · exact hx h
        · simp at h
        · rw [cosE_single, abs_div, abs_norm, le_div_iff₀ hxn] at h h1
          have a := abs_nonneg (x 0)
          have b := abs_nonneg (x 1)
          have e1 : (999 / 1000 * ‖x‖) ^ 2 ≤ x 0 ^ 2 := by
            rw [← sq_abs (x 0)]; apply pow_le_pow_left₀ (by positivity); nlinarith
          have e2 : (999 / 1000 * ‖x‖) ^ 2 ≤ x 1 ^ 2 := by
            rw [← sq_abs (x 1)]; apply pow_le_pow_left₀ (by positivity); nlinarith
          nlinarith [sq_pos_of_pos hxn]
    · simp [h]
  refine ⟨_, hres, by simp [hnot], ?_⟩
  by_contra hli
  exact hnot (nearParallel_of_dependent hli)

/-- C17, dimension one: the unit vector pointing the other way. -/
theorem C17_different_direction_1d {x : E 1} (hx : x ≠ 0) :
    Vec.differentDirection Tol.default (arr x) = .ok (arr (-(‖x‖⁻¹ • x))) := by
  have h0 : x 0 ≠ 0 := by
    intro h; apply hx; ext i; fin_cases i; simpa using h
  have hnorm : ‖x‖ = |x 0| := by simp [EuclideanSpace.norm_eq, Real.sqrt_sq_eq_abs]
  unfold Vec.differentDirection
  simp only [isZero_default_arr, hx, decide_false, ok_bind, Bool.false_eq_true, if_false]
  rw [arr1, arr1]
  simp only
  rw [new1D_real _ (by simp), hnorm]
  rcases lt_or_gt_of_ne h0 with h | h
  · simp [signNum, h, h.not_gt, abs_of_neg h, inv_mul_cancel₀ h0]
  · simp [signNum, h, abs_of_pos h, inv_mul_cancel₀ h0]

/-- C17: the zero vector raises `ValueError`. -/
theorem C17_different_direction_zero :
    ∃ msg, Vec.differentDirection Tol.default (arr (0 : E n)) = .error (.valueError msg) :=
  ⟨_, by simp [Vec.differentDirection]; rfl⟩

example : (vec3 1 0 0) ≠ 0 := by intro h; have := congrFun (congrArg WithLp.ofLp h) 0; simp [vec3] at this

open Classical in
/-- C17 with the keyword tolerances of `math.isclose`: vectors that are zero for the tolerance raise `ValueError`; otherwise the
result is the first coordinate vector, or the second one if `is_parallel` accepts the first; with tolerances up to `1/4`
`is_parallel` with the same tolerances rejects the result. -/
theorem C17_different_direction_tol (x : E (n + 2)) {tol : Tol ℝ} (ht : tol.Nonneg) :
    (Close tol (‖x‖ ^ 2) 0 → ∃ msg, Vec.differentDirection tol (arr x) = .error (.valueError msg)) ∧
    (¬ Close tol (‖x‖ ^ 2) 0 → ∃ i : Fin (n + 2), (i = if ParallelTol tol x (EuclideanSpace.single 0 1) then 1 else 0) ∧
      Vec.differentDirection tol (arr x) = .ok (arr (EuclideanSpace.single i 1)) ∧
      (tol.rel ≤ 1 / 4 → tol.abs ≤ 1 / 4 → Vec.isParallel tol (arr x) (arr (EuclideanSpace.single i 1)) = .ok false)) := by
  constructor
  · intro hz
    exact ⟨_, by simp only [Vec.differentDirection, isZero_arr ht, hz, decide_true, ok_bind, if_true]; rfl⟩
  intro hz
  have hx : x ≠ 0 := by
    rintro rfl
    exact hz (by simp [Close, ht.2])
  have hxn : 0 < ‖x‖ := norm_pos_iff.mpr hx
  refine ⟨_, rfl, ?_, ?_⟩
  · have hb0 : (Vec.basisVec (n + 2) 0 : List ℝ) = arr (EuclideanSpace.single (0 : Fin (n + 2)) 1) :=
      basisVec_eq (0 : Fin (n + 2))
    have hb1 : (Vec.basisVec (n + 2) 1 : List ℝ) = arr (EuclideanSpace.single (1 : Fin (n + 2)) 1) :=
      basisVec_eq (1 : Fin (n + 2))
    unfold Vec.differentDirection
    simp only [isZero_arr ht, hz, decide_false, ok_bind, Bool.false_eq_true, if_false]
    split
    · next h => have := congrArg List.length h; simp at this
    · simp only [length_arr, hb0, hb1, new1D_arr, ok_bind, isParallel_arr ht, pure_ok]
      by_cases h : ParallelTol tol x (EuclideanSpace.single 0 1) <;> simp [h]
  intro hr ha
  have hcos : ∀ i : Fin (n + 2), ParallelTol tol x (EuclideanSpace.single i 1) → 9 / 16 * ‖x‖ ^ 2 ≤ x i ^ 2 := by
    rintro i (h | h | h)
    · exact absurd h hz
    · exfalso
      simp only [Close, EuclideanSpace.norm_single, norm_one, one_pow, sub_zero, abs_one, abs_zero] at h
      rcases le_max_iff.mp h with h | h
      · rw [max_eq_left zero_le_one] at h; linarith
      · linarith
    · have h1 := abs_cosE_le_one x (EuclideanSpace.single i 1)
      rw [Close, abs_one, abs_abs, max_eq_right h1, mul_one] at h
      have h2 := (abs_le.mp (h.trans (max_le hr ha))).1
      rw [cosE_single, abs_div, abs_norm] at h2
      have h3 : 3 / 4 * ‖x‖ ≤ |x i| := by
        rw [← le_div_iff₀ hxn]; linarith
      have h4 := pow_le_pow_left₀ (by positivity) h3 2
      rw [sq_abs] at h4
      linarith
  have hsq : x 0 ^ 2 + x 1 ^ 2 ≤ ‖x‖ ^ 2 := by
    rw [EuclideanSpace.norm_sq_eq]
    have h01 : ({0, 1} : Finset (Fin (n + 2))) ⊆ Finset.univ := Finset.subset_univ _
    have := Finset.sum_le_sum_of_subset_of_nonneg (f := fun i => ‖x i‖ ^ 2) h01
      (fun i _ _ => by positivity)
    rw [Finset.sum_pair (by simp)] at this
    simpa [sq_abs] using this
  rw [isParallel_arr ht]
  congr 1
  rw [decide_eq_false_iff_not]
  by_cases h : ParallelTol tol x (EuclideanSpace.single 0 1)
  · simp only [h, if_true]
    intro h1
    have a := hcos 0 h
    have b := hcos 1 h1
    have c := sq_pos_of_pos hxn
    linarith
  · simpa only [h, if_false] using h

example : ¬ Close ⟨1 / 10, 1 / 5⟩ (‖vec3 1 0 0‖ ^ 2) 0 := by
  rw [norm_sq3]; simp [Close, vec3]; norm_num

end SkSpatial
