import Verif.Spec.Arrays
import Verif.Lemmas.Vector
import Verif.Lemmas.XReal
import Verif.Lemmas.Cross
import Mathlib.Geometry.Euclidean.Angle.Unoriented.TriangleInequality
/-! # C06 - C17: points and vectors -/

namespace SkSpatial
open InnerProductGeometry

variable {n : ℕ}

/-! ## C06 -/

/-- C06: `distance_point` is the Euclidean distance, and a translation-invariant metric. -/
theorem C06_distance_point_metric [NeZero n] (x y z t : E n) :
    ∃ dxy dyz dxz : ℝ,
      Pt.distancePoint (arr x) (arr y) = .ok dxy ∧ Pt.distancePoint (arr y) (arr z) = .ok dyz ∧
      Pt.distancePoint (arr x) (arr z) = .ok dxz ∧
      dxy = Real.sqrt (∑ i, (x i - y i) ^ 2) ∧ 0 ≤ dxy ∧ (dxy = 0 ↔ x = y) ∧
      Pt.distancePoint (arr y) (arr x) = .ok dxy ∧ dxz ≤ dxy + dyz ∧
      Pt.distancePoint (arr (x + t)) (arr (y + t)) = .ok dxy := by
  refine ⟨dist x y, dist y z, dist x z, by simp, by simp, by simp, ?_, dist_nonneg, dist_eq_zero, ?_,
    dist_triangle x y z, by simp⟩
  · rw [EuclideanSpace.dist_eq]; simp [Real.dist_eq, sq_abs]
  · simp [dist_comm y x]

/-- C06: points of different dimensions, neither of them one-dimensional, raise `ValueError`. -/
theorem C06_distance_point_mismatch {m : ℕ} (x : E n) (y : E m) (h : n ≠ m) (hn : n ≠ 1) (hm : m ≠ 1) :
    ∃ msg, Pt.distancePoint (arr x) (arr y) = .error (.valueError msg) := by
  have : vsub (arr y) (arr x) = .error (.valueError "operands could not be broadcast together") := by
    unfold vsub broadcast2
    rw [if_neg (by simpa using h.symm)]
    split
    · next h1 => have := congrArg List.length h1; simp at this; omega
    · next h1 _ => have := congrArg List.length h1; simp at this; omega
    · rfl
  exact ⟨_, by simp [Pt.distancePoint, Vec.fromPoints, this]; rfl⟩

example : ∃ d, Pt.distancePoint (arr (vec2 0 0)) (arr (vec2 3 4)) = .ok d ∧ d = 5 := by
  refine ⟨_, distancePoint_arr _ _, ?_⟩
  rw [EuclideanSpace.dist_eq]
  simp [vec2, Fin.sum_univ_two, Real.dist_eq]
  rw [show (3 : ℝ) ^ 2 + 4 ^ 2 = 5 ^ 2 by norm_num]; exact Real.sqrt_sq (by norm_num)

/-! ## C07 -/

/-- C07: `unit()` raises exactly on the zero vector, and otherwise has norm 1 and the same direction;
it is idempotent, unchanged by positive scaling and negated by negative scaling. -/
theorem C07_unit (x : E n) :
    (x = 0 → ∃ msg, Vec.unit (arr x) = .error (.valueError msg)) ∧
    (x ≠ 0 → ∃ u : E n, Vec.unit (arr x) = .ok (arr u) ∧ ‖u‖ = 1 ∧ x = ‖x‖ • u ∧
      Vec.unit (arr u) = .ok (arr u) ∧
      (∀ c : ℝ, 0 < c → Vec.unit (arr (c • x)) = .ok (arr u)) ∧
      (∀ c : ℝ, c < 0 → Vec.unit (arr (c • x)) = .ok (arr (-u)))) := by
  constructor
  · rintro rfl; exact ⟨_, unit_arr_zero⟩
  · intro hx
    have hn : ‖x‖ ≠ 0 := norm_ne_zero_iff.mpr hx
    have h1 : ‖‖x‖⁻¹ • x‖ = 1 := by rw [norm_smul, norm_inv, norm_norm, inv_mul_cancel₀ hn]
    refine ⟨‖x‖⁻¹ • x, unit_arr hx, h1, ?_, ?_, ?_, ?_⟩
    · rw [smul_smul, mul_inv_cancel₀ hn, one_smul]
    · rw [unit_arr (by intro h; rw [h] at h1; simp at h1), h1]; simp
    · intro c hc
      rw [unit_arr (smul_ne_zero hc.ne' hx), norm_smul, Real.norm_of_nonneg hc.le, smul_smul]
      congr 3; field_simp
    · intro c hc
      rw [unit_arr (smul_ne_zero hc.ne hx), norm_smul, Real.norm_of_nonpos hc.le, smul_smul,
        ← neg_smul]
      congr 3; field_simp; rw [div_self hc.ne]

example : vec2 3 4 ≠ 0 := by intro h; have := congrFun (congrArg WithLp.ofLp h) 0; simp [vec2] at this

/-! ## C08 -/

open Classical in
/-- C08: `is_zero`. -/
theorem C08_is_zero (x : E n) (tol : Tol ℝ) :
    Vec.isZero Tol.default (arr x) = .ok (decide (x = 0)) ∧
    (tol.Nonneg → tol.rel < 1 → Vec.isZero tol (arr x) = .ok (decide (‖x‖ ^ 2 ≤ tol.abs))) ∧
    (tol.Nonneg → 1 ≤ tol.rel → Vec.isZero tol (arr x) = .ok true) ∧
    (tol.rel < 0 ∨ tol.abs < 0 → ∃ msg, Vec.isZero tol (arr x) = .error (.valueError msg)) := by
  refine ⟨isZero_default_arr x, ?_, ?_, ?_⟩
  · intro h h1
    rw [isZero_arr h]
    simp [close_zero h h1]
  · intro h h1
    rw [isZero_arr h]
    have : Close tol (‖x‖ ^ 2) 0 := by
      unfold Close
      apply le_max_of_le_left
      simp only [sub_zero, abs_zero]
      rw [max_eq_left (abs_nonneg _)]
      nlinarith [abs_nonneg (‖x‖ ^ 2)]
    simp [this]
  · intro h
    have : ¬ tol.Nonneg := by rintro ⟨h1, h2⟩; rcases h with h | h <;> linarith
    exact ⟨_, by simp [Vec.isZero, isclose_neg this]; rfl⟩

example : (⟨0, 1 / 100⟩ : Tol ℝ).Nonneg ∧ (⟨0, 1 / 100⟩ : Tol ℝ).rel < 1 := by norm_num [Tol.Nonneg]

/-! ## C09 -/

/-- C09: the cross product of vectors of dimension at most 3 (zero-padded to 3D). -/
theorem C09_cross {m : ℕ} [NeZero n] [NeZero m] (hn : n ≤ 3) (hm : m ≤ 3) (x : E n) (y : E m) :
    ∃ w : E 3, Vec.cross (arr x) (arr y) = .ok (arr w) ∧
      inner ℝ w (pad3 x) = (0 : ℝ) ∧ inner ℝ w (pad3 y) = (0 : ℝ) ∧
      Vec.cross (arr y) (arr x) = .ok (arr (-w)) ∧
      ‖w‖ ^ 2 = ‖x‖ ^ 2 * ‖y‖ ^ 2 - (inner ℝ (pad3 x) (pad3 y) : ℝ) ^ 2 ∧
      (w = 0 ↔ ¬ LinearIndependent ℝ ![pad3 x, pad3 y]) ∧
      0 ≤ Matrix.det (Matrix.of ![(pad3 x).ofLp, (pad3 y).ofLp, w.ofLp]) := by
  refine ⟨crossE (pad3 x) (pad3 y), cross_arr hn hm x y, crossE_inner_left _ _, crossE_inner_right _ _,
    ?_, ?_, crossE_eq_zero_iff _ _, ?_⟩
  · rw [cross_arr hm hn, crossE_anticomm]
  · rw [crossE_norm_sq, norm_pad3 hn, norm_pad3 hm]
  · have h := sq_nonneg ‖crossE (pad3 x) (pad3 y)‖
    rw [← real_inner_self_eq_norm_sq, inner3] at h
    rw [Matrix.det_fin_three]
    simp [crossE, vec3] at h ⊢
    linarith

/-- C09: a dimension above 3 raises `ValueError`. -/
theorem C09_cross_dimension {m : ℕ} [NeZero n] [NeZero m] (h : 3 < n ∨ 3 < m) (x : E n) (y : E m) :
    ∃ msg, Vec.cross (arr x) (arr y) = .error (.valueError msg) := by
  by_cases hn : 3 < n
  · exact ⟨_, by simp [Vec.cross, setDimension3_arr_gt x hn]; rfl⟩
  · have hm : 3 < m := h.resolve_left hn
    exact ⟨_, by simp [Vec.cross, setDimension3_arr x (not_lt.mp hn), setDimension3_arr_gt y hm]; rfl⟩

example : Vec.cross (arr (vec2 1 0)) (arr (vec3 0 1 0)) = .ok [0, 0, 1] := by
  rw [cross_arr (by norm_num) le_rfl]
  simp [arr3, crossE, vec3, vec2, padTo]

/-! ## C10 -/

/-- C10: over *any* number type with sane comparisons - in particular for every rounding behaviour -
a cosine similarity that is returned is neither below `-1` nor above `1`, and `angle_between` then does
not raise: it returns the arc cosine of that similarity. -/
theorem C10_cosine_similarity_any_rounding {K : Type} [PyNum K] (hK : SaneUnit K) (v w : List K) (c : K)
    (h : Vec.cosineSimilarity v w = .ok c) :
    (c <. (PyNum.ofInt (-1) : K)) = false ∧ ((one : K) <. c) = false ∧
      Vec.angleBetween v w = .ok (PyNum.acos c) := by
  have key : ∀ x : K, (clip x (PyNum.ofInt (-1)) one <. (PyNum.ofInt (-1) : K)) = false ∧
      ((one : K) <. clip x (PyNum.ofInt (-1)) one) = false := by
    intro x
    unfold clip
    cases h1 : (x <. (PyNum.ofInt (-1) : K))
    · cases h2 : ((one : K) <. x)
      · simp [h1, h2]
      · simp [hK.2.1, hK.2.2]
    · simp [hK.1, hK.2.2]
  have hc : (c <. (PyNum.ofInt (-1) : K)) = false ∧ ((one : K) <. c) = false := by
    unfold Vec.cosineSimilarity at h
    obtain ⟨o, -, h⟩ := bind_ok_iff.mp h
    simp only at h
    split at h
    · cases h
    · obtain ⟨d, -, h⟩ := bind_ok_iff.mp h
      simp only [pure_ok, Except.ok.injEq] at h
      rw [← h]; exact key _
  refine ⟨hc.1, hc.2, ?_⟩
  simp [Vec.angleBetween, h, mathAcos, hc.1, hc.2]

open XReal in
/-- The hypothesis of `C10_cosine_similarity_any_rounding` holds for `XReal` arithmetic followed by an
arbitrary rounding function `fl`. -/
theorem C10_sane_for_every_rounding (fl : XReal → XReal) : @SaneUnit XReal (roundedNum fl) := by
  refine ⟨?_, ?_, ?_⟩
  · show XReal.lt (fin ((-1 : Int) : ℝ)) (fin ((-1 : Int) : ℝ)) = false; simp [XReal.lt]
  · show XReal.lt (fin ((1 : Int) : ℝ)) (fin ((1 : Int) : ℝ)) = false; simp [XReal.lt]
  · show XReal.lt (fin ((1 : Int) : ℝ)) (fin ((-1 : Int) : ℝ)) = false; simp [XReal.lt]

open XReal in
/-- C10: for every rounding function, a returned similarity is NaN or a real in `[-1, 1]`, and the
angle computed from it before its final rounding is NaN or in `[0, π]`. -/
theorem C10_cosine_similarity_range (fl : XReal → XReal) (v w : List XReal) (c : XReal)
    (h : @Vec.cosineSimilarity XReal (roundedNum fl) v w = .ok c) :
    (c = nan ∨ ∃ r : ℝ, c = fin r ∧ -1 ≤ r ∧ r ≤ 1) ∧
    ∃ a, @Vec.angleBetween XReal (roundedNum fl) v w = .ok (fl a) ∧
      (a = nan ∨ ∃ r : ℝ, a = fin r ∧ 0 ≤ r ∧ r ≤ Real.pi) := by
  obtain ⟨h1, h2, h3⟩ := @C10_cosine_similarity_any_rounding XReal (roundedNum fl)
    (C10_sane_for_every_rounding fl) v w c h
  have hc : c = nan ∨ ∃ r : ℝ, c = fin r ∧ -1 ≤ r ∧ r ≤ 1 := by
    cases c with
    | fin r =>
      right
      change XReal.lt (fin r) (fin ((-1 : Int) : ℝ)) = false at h1
      change XReal.lt (fin ((1 : Int) : ℝ)) (fin r) = false at h2
      simp [XReal.lt] at h1 h2
      exact ⟨r, rfl, h1, h2⟩
    | posInf => change XReal.lt _ _ = false at h2; simp [XReal.lt, one] at h2
    | negInf => change XReal.lt _ _ = false at h1; simp [XReal.lt] at h1
    | nan => exact Or.inl rfl
  refine ⟨hc, XReal.acos c, h3, ?_⟩
  rcases hc with rfl | ⟨r, rfl, hr1, hr2⟩
  · left; rfl
  · right
    refine ⟨Real.arccos r, ?_, Real.arccos_nonneg r, Real.arccos_le_pi r⟩
    simp [XReal.acos, not_lt.mpr hr1, not_lt.mpr hr2]

/-- C10: in exact arithmetic it is the cosine of the Euclidean angle, symmetric, and raises exactly for
zero vectors. -/
theorem C10_cosine_similarity_exact [NeZero n] (x y : E n) :
    (x ≠ 0 → y ≠ 0 → Vec.cosineSimilarity (arr x) (arr y) = .ok (Real.cos (angle x y))) ∧
    (Vec.cosineSimilarity (arr x) (arr y) = Vec.cosineSimilarity (arr y) (arr x)) ∧
    ((∃ msg, Vec.cosineSimilarity (arr x) (arr y) = .error (.valueError msg)) ↔ x = 0 ∨ y = 0) := by
  by_cases h : x = 0 ∨ y = 0
  · refine ⟨fun hx hy => ?_, ?_, ?_⟩
    · rcases h with h | h <;> contradiction
    · rw [cosineSimilarity_arr_zero h, cosineSimilarity_arr_zero h.symm]
    · simp [cosineSimilarity_arr_zero h, h]
  · push Not at h
    refine ⟨fun hx hy => ?_, ?_, ?_⟩
    · rw [cosineSimilarity_arr hx hy, cosE_eq_cos]
    · rw [cosineSimilarity_arr h.1 h.2, cosineSimilarity_arr h.2 h.1, cosE_eq_cos, cosE_eq_cos,
        angle_comm]
    · simp [cosineSimilarity_arr h.1 h.2, h.1, h.2]

/-! ## C11 -/

theorem angleBetween_arr [NeZero n] {x y : E n} (hx : x ≠ 0) (hy : y ≠ 0) :
    Vec.angleBetween (arr x) (arr y) = .ok (angle x y) := by
  have h := abs_le.mp (abs_cosE_le_one x y)
  simp only [Vec.angleBetween, cosineSimilarity_arr hx hy, ok_bind, mathAcos]
  simp [not_lt.mpr h.1, not_lt.mpr h.2]
  rfl

/-- C11: `angle_between` is Mathlib's unoriented Euclidean angle, and the laws that follow. -/
theorem C11_angle_between [NeZero n] {x y z : E n} (hx : x ≠ 0) (hy : y ≠ 0) (hz : z ≠ 0) :
    ∃ θ : ℝ, Vec.angleBetween (arr x) (arr y) = .ok θ ∧ θ = angle x y ∧
      0 ≤ θ ∧ θ ≤ Real.pi ∧ inner ℝ x y = ‖x‖ * ‖y‖ * Real.cos θ ∧
      Vec.angleBetween (arr y) (arr x) = .ok θ ∧
      (∀ c : ℝ, 0 < c → Vec.angleBetween (arr x) (arr (c • y)) = .ok θ) ∧
      Vec.angleBetween (arr x) (arr (-y)) = .ok (Real.pi - θ) ∧
      (θ = 0 ↔ ∃ c : ℝ, 0 < c ∧ y = c • x) ∧
      (∃ α β : ℝ, Vec.angleBetween (arr x) (arr z) = .ok α ∧ Vec.angleBetween (arr y) (arr z) = .ok β ∧
        α ≤ θ + β) := by
  refine ⟨angle x y, angleBetween_arr hx hy, rfl, angle_nonneg x y, angle_le_pi x y, ?_, ?_, ?_, ?_, ?_, ?_⟩
  · rw [mul_comm, cos_angle_mul_norm_mul_norm]
  · rw [angleBetween_arr hy hx, angle_comm]
  · intro c hc
    rw [angleBetween_arr hx (smul_ne_zero hc.ne' hy), angle_smul_right_of_pos _ _ hc]
  · rw [angleBetween_arr hx (neg_ne_zero.mpr hy), angle_neg_right]
  · rw [angle_eq_zero_iff]; simp [hx]
  · refine ⟨_, _, angleBetween_arr hx hz, angleBetween_arr hy hz, ?_⟩
    exact angle_le_angle_add_angle x y z

/-! ## C12 -/

theorem angleSigned_arr (u v : E 2) :
    Vec.angleSigned (arr u) (arr v) =
      .ok (Complex.arg ⟨inner ℝ u v, u 0 * v 1 - u 1 * v 0⟩) := by
  have h := dot_arr u v
  simp only [Vec.angleSigned, new1D_arr, length_arr]
  simp [h]
  simp [arr2, det2]

theorem abs_arg_eq_of_cos {z : ℂ} (hz : z ≠ 0) {α : ℝ} (h0 : 0 ≤ α) (h1 : α ≤ Real.pi)
    (h : z.re = ‖z‖ * Real.cos α) : |Complex.arg z| = α := by
  have hz' : ‖z‖ ≠ 0 := norm_ne_zero_iff.mpr hz
  apply Real.injOn_cos ⟨abs_nonneg _, Complex.abs_arg_le_pi z⟩ ⟨h0, h1⟩
  rw [Real.cos_abs, Complex.cos_arg hz, h, mul_div_cancel_left₀ _ hz']

/-- C12: the signed angle of 2D vectors. -/
theorem C12_angle_signed {u v : E 2} (hu : u ≠ 0) (hv : v ≠ 0) :
    ∃ θ : ℝ, Vec.angleSigned (arr u) (arr v) = .ok θ ∧ -Real.pi < θ ∧ θ ≤ Real.pi ∧
      -- rotating the direction of `u` counter-clockwise by `θ` gives the direction of `v`
      (‖v‖⁻¹ • v = ‖u‖⁻¹ • vec2 (Real.cos θ * u 0 - Real.sin θ * u 1)
        (Real.sin θ * u 0 + Real.cos θ * u 1)) ∧
      Vec.angleBetween (arr u) (arr v) = .ok |θ| ∧
      (θ ≠ Real.pi → Vec.angleSigned (arr v) (arr u) = .ok (-θ)) ∧
      (θ = Real.pi → Vec.angleSigned (arr v) (arr u) = .ok Real.pi) := by
  set z : ℂ := ⟨inner ℝ u v, u 0 * v 1 - u 1 * v 0⟩ with hz
  have hun : ‖u‖ ≠ 0 := norm_ne_zero_iff.mpr hu
  have hvn : ‖v‖ ≠ 0 := norm_ne_zero_iff.mpr hv
  have hzn : ‖z‖ = ‖u‖ * ‖v‖ := by
    rw [← Real.sqrt_sq (norm_nonneg z), ← Complex.normSq_eq_norm_sq, Complex.normSq_apply,
      ← Real.sqrt_sq (mul_nonneg (norm_nonneg u) (norm_nonneg v)), mul_pow, norm_sq2, norm_sq2, hz]
    simp only [inner2]
    congr 1; ring
  have hz0 : z ≠ 0 := by
    rw [← norm_ne_zero_iff, hzn]; exact mul_ne_zero hun hvn
  have hc : ‖u‖ * ‖v‖ * Real.cos z.arg = inner ℝ u v := by
    rw [← hzn, Complex.norm_mul_cos_arg]
  have hs : ‖u‖ * ‖v‖ * Real.sin z.arg = u 0 * v 1 - u 1 * v 0 := by
    rw [← hzn, Complex.norm_mul_sin_arg]
  have hswap : Vec.angleSigned (arr v) (arr u) = .ok (Complex.arg (starRingEnd ℂ z)) := by
    rw [angleSigned_arr]
    congr 2
    apply Complex.ext
    · simp [hz, real_inner_comm]
    · simp [hz]; ring
  refine ⟨z.arg, angleSigned_arr u v, Complex.neg_pi_lt_arg z, Complex.arg_le_pi z, ?_, ?_, ?_, ?_⟩
  · rw [inner2] at hc
    have hnu := norm_sq2 u
    have h1 : v = (‖v‖ / ‖u‖) • vec2 (Real.cos z.arg * u 0 - Real.sin z.arg * u 1)
        (Real.sin z.arg * u 0 + Real.cos z.arg * u 1) := by
      ext i
      fin_cases i
      · simp [vec2]; field_simp
        apply mul_left_cancel₀ hun
        linear_combination (-u 0) * hc + (u 1) * hs + v 0 * hnu
      · simp [vec2]; field_simp
        apply mul_left_cancel₀ hun
        linear_combination (-u 1) * hc - (u 0) * hs + v 1 * hnu
    have h2 := congrArg (fun w => ‖v‖⁻¹ • w) h1
    simp only [smul_smul] at h2
    rw [h2]
    congr 1
    field_simp
  · rw [angleBetween_arr hu hv, abs_arg_eq_of_cos hz0 (angle_nonneg u v) (angle_le_pi u v)]
    rw [hzn, mul_comm, cos_angle_mul_norm_mul_norm]
  · intro hne; rw [hswap, Complex.arg_conj, if_neg hne]
  · intro he; rw [hswap, Complex.arg_conj, if_pos he]

/-- C12: the signed angle with a zero vector is 0 (`atan2(0, 0)`); nothing is raised. -/
theorem C12_angle_signed_zero (u v : E 2) (h : u = 0 ∨ v = 0) : Vec.angleSigned (arr u) (arr v) = .ok 0 := by
  have hz : (⟨inner ℝ u v, u 0 * v 1 - u 1 * v 0⟩ : ℂ) = 0 := by
    rcases h with rfl | rfl <;> apply Complex.ext <;> simp
  rw [angleSigned_arr, hz, Complex.arg_zero]

/-- C12: non-2D input raises `ValueError`. -/
theorem C12_angle_signed_dimension {m : ℕ} [NeZero n] [NeZero m] (u : E n) (v : E m)
    (h : n ≠ 2 ∨ m ≠ 2) : ∃ msg, Vec.angleSigned (arr u) (arr v) = .error (.valueError msg) := by
  refine ⟨"The vectors must be 2D.", ?_⟩
  by_cases hn : n = 2
  · have hm : m ≠ 2 := h.resolve_left (not_not.mpr hn)
    simp [Vec.angleSigned, hn, hm]
  · simp [Vec.angleSigned, hn]

example : Vec.angleSigned (arr (vec2 1 0)) (arr (vec2 0 1)) = .ok (Real.pi / 2) := by
  rw [angleSigned_arr]
  have : (⟨inner ℝ (vec2 1 0) (vec2 0 1), (vec2 1 0) 0 * (vec2 0 1) 1 - (vec2 1 0) 1 * (vec2 0 1) 0⟩ : ℂ)
      = Complex.I := by
    apply Complex.ext <;> simp [inner2, vec2]
  rw [this, Complex.arg_I]

end SkSpatial
