import Verif.Model.LineSegment
import Verif.Props.Triangle
import Verif.Props.Arrays
import Verif.Props.Line
/-! # C63 - C65: line segments -/

namespace SkSpatial
open EuclideanGeometry

variable {n : ℕ}

/-! ## C63: the constructor -/

open Classical in
/-- C63: endpoints of the same dimension: the constructor fails, with `ValueError`, exactly when every
pair of coordinates is close to relative `1e-9`. -/
theorem C63_constructor [NeZero n] (a b : E n) :
    ((∀ i, |a i - b i| ≤ 1 / 1000000000 * max |a i| |b i|) →
      ∃ msg, LineSegment.new (arr a) (arr b) = .error (.valueError msg)) ∧
    (∀ i, 1 / 1000000000 * max |a i| |b i| < |a i - b i| →
      LineSegment.new (arr a) (arr b) = .ok ⟨arr a, arr b⟩) ∧
    (a = b → ∃ msg, LineSegment.new (arr a) (arr b) = .error (.valueError msg)) := by
  have hc : ∀ x y : ℝ, Close Tol.default x y ↔ |x - y| ≤ 1 / 1000000000 * max |x| |y| := by
    intro x y
    have h0 : 0 ≤ 1 / 1000000000 * max |x| |y| := by positivity
    simp only [Close, Tol.default_rel, Tol.default_abs]
    rw [max_eq_left h0]
  have h := C71_is_close Tol.default Tol.default_nonneg a b
  have key : (∀ i, |a i - b i| ≤ 1 / 1000000000 * max |a i| |b i|) →
      ∃ msg, LineSegment.new (arr a) (arr b) = .error (.valueError msg) := by
    intro hall
    rw [decide_eq_true (fun i => (hc _ _).mpr (hall i))] at h
    exact ⟨_, by simp only [LineSegment.new, new1D_arr, ok_bind, h, if_true]; rfl⟩
  refine ⟨key, ?_, ?_⟩
  · intro i hi
    have hno : ¬ ∀ i, Close Tol.default (a i) (b i) := fun hall => absurd ((hc _ _).mp (hall i)) (not_le.mpr hi)
    rw [decide_eq_false hno] at h
    simp [LineSegment.new, h]
  · rintro rfl
    apply key; intro i; simp

/-- C63: what a constructed segment with endpoints of equal dimension is. -/
theorem LineSegment.new_ok {a b : E n} {S : LineSegment ℝ} (h : LineSegment.new (arr a) (arr b) = .ok S) :
    NeZero n ∧ a ≠ b ∧ S = ⟨arr a, arr b⟩ := by
  have hn : NeZero n := by
    unfold LineSegment.new at h
    obtain ⟨a', ha, -⟩ := bind_ok_iff.mp h
    exact ⟨(new1D_ok ha).1⟩
  obtain ⟨h1, h2, h3⟩ := C63_constructor a b
  refine ⟨hn, ?_, ?_⟩
  · intro e
    obtain ⟨msg, hm⟩ := h3 e
    rw [hm] at h; cases h
  · by_cases hall : ∀ i, |a i - b i| ≤ 1 / 1000000000 * max |a i| |b i|
    · obtain ⟨msg, hm⟩ := h1 hall
      rw [hm] at h; cases h
    · push Not at hall
      obtain ⟨i, hi⟩ := hall
      rw [h2 i hi] at h
      cases h; rfl

/-- C63: the order of the endpoints does not matter. -/
theorem C63_symmetric {a b : E n} {S : LineSegment ℝ} (h : LineSegment.new (arr a) (arr b) = .ok S) :
    LineSegment.new (arr b) (arr a) = .ok ⟨arr b, arr a⟩ := by
  obtain ⟨hn, hab, rfl⟩ := LineSegment.new_ok h
  by_cases hall : ∀ i, |a i - b i| ≤ 1 / 1000000000 * max |a i| |b i|
  · obtain ⟨msg, hm⟩ := (C63_constructor a b).1 hall
    rw [hm] at h; cases h
  · push Not at hall
    obtain ⟨i, hi⟩ := hall
    exact (C63_constructor b a).2.1 i (by rwa [max_comm, abs_sub_comm])

/-- C63, defect: distinct endpoints half a unit apart, far from the origin, are rejected as equal. -/
theorem C63_distinct_endpoints_rejected :
    dist (vec2 1000000000 0) (vec2 (1000000000 + 1 / 2) 0) = 1 / 2 ∧
    ∃ msg, LineSegment.new (arr (vec2 1000000000 0)) (arr (vec2 (1000000000 + 1 / 2) 0)) =
      .error (.valueError msg) := by
  refine ⟨dist_vec2_of (by norm_num) (by norm_num), (C63_constructor _ _).1 ?_⟩
  intro i
  fin_cases i
  · simp only [vec2]
    norm_num [abs_of_nonneg, abs_of_neg]
  · simp [vec2]

/-- C63: endpoints of different dimensions are rejected, unless one has dimension 1. -/
theorem C63_dimension {m : ℕ} [NeZero n] [NeZero m] (a : E n) (b : E m) (hnm : n ≠ m) (hn : n ≠ 1) (hm : m ≠ 1) :
    ∃ msg, LineSegment.new (arr a) (arr b) = .error (.valueError msg) := by
  have h1 : (arr a).length ≠ 1 := by simpa using hn
  have h2 : (arr b).length ≠ 1 := by simpa using hm
  have : broadcastPairs (arr a) (arr b) = .error (.valueError "operands could not be broadcast together") := by
    unfold broadcastPairs
    rw [if_neg (by simpa using hnm)]
    generalize arr a = u, arr b = v at *
    match u, v with
    | [x], _ => simp at h1
    | [], [y] => simp at h2
    | _ :: _ :: _, [y] => simp at h2
    | [], [] => rfl
    | [], _ :: _ :: _ => rfl
    | _ :: _ :: _, [] => rfl
    | _ :: _ :: _, _ :: _ :: _ => rfl
  exact ⟨_, by simp only [LineSegment.new, new1D_arr, ok_bind, arrIsClose, this, error_bind]; rfl⟩

/-- C63, defect: a one-dimensional endpoint is compared by broadcasting, so a "segment" from a 1D point to
a 2D point is constructed. -/
theorem C63_mixed_dimension_accepted :
    LineSegment.new [(0 : ℝ)] [0, 1] = .ok ⟨[0], [0, 1]⟩ := by
  have h1 : isclose (Tol.default : Tol ℝ) 0 0 = .ok true := by
    rw [isclose_eq Tol.default_nonneg]; simp [Close.refl Tol.default_nonneg 0]
  have h2 : isclose (Tol.default : Tol ℝ) 0 1 = .ok false := by
    rw [isclose_eq Tol.default_nonneg]; simp only [close_comm _ (0 : ℝ), close_default_zero]; simp
  have e1 : new1D [(0 : ℝ)] = .ok [0] := by simp [new1D]
  have e2 : new1D [(0 : ℝ), 1] = .ok [0, 1] := by simp [new1D]
  simp only [LineSegment.new, e1, e2, ok_bind, arrIsClose, broadcastPairs]
  simp [h1, h2]

example : ∃ S : LineSegment ℝ, LineSegment.new (arr (vec2 0 0)) (arr (vec2 1 0)) = .ok S :=
  ⟨_, (C63_constructor _ _).2.1 0 (by simp [vec2]; norm_num)⟩

/-! ## C64: `contains_point` -/

open Classical in
theorem LineSegment.containsPoint_arr [NeZero n] (a b x : E n) {tol : Tol ℝ} (ht : tol.Nonneg) :
    LineSegment.containsPoint tol ⟨arr a, arr b⟩ (arr x) = .ok (decide
      (Close tol (‖a - x‖ ^ 2) 0 ∨ Close tol (‖b - x‖ ^ 2) 0 ∨ Close tol (cosE (a - x) (b - x)) (-1))) := by
  have e : (PyNum.ofInt (-1) : ℝ) = -1 := by simp
  simp only [LineSegment.containsPoint, fromPoints_arr, ok_bind, isZero_arr ht]
  by_cases h1 : Close tol (‖a - x‖ ^ 2) 0
  · simp [h1]
  · by_cases h2 : Close tol (‖b - x‖ ^ 2) 0
    · simp [h1, h2]
    · have hx : a - x ≠ 0 := by
        intro e0; apply h1; rw [e0]; simpa using Close.refl ht 0
      have hy : b - x ≠ 0 := by
        intro e0; apply h2; rw [e0]; simpa using Close.refl ht 0
      simp [h1, h2, cosineSimilarity_arr hx hy, isclose_eq ht]

theorem cosE_eq_neg_one_iff {a b x : E n} : cosE (a - x) (b - x) = -1 ↔ Sbtw ℝ a x b := by
  rw [← angle_eq_pi_iff_sbtw, cosE_eq_cos, ← Real.cos_pi]
  constructor
  · intro h
    exact Real.injOn_cos ⟨InnerProductGeometry.angle_nonneg _ _, InnerProductGeometry.angle_le_pi _ _⟩
      ⟨Real.pi_pos.le, le_refl _⟩ h
  · intro h
    have : InnerProductGeometry.angle (a - x) (b - x) = Real.pi := h
    rw [this]

theorem mem_segment_iff_cos {a b x : E n} :
    x ∈ segment ℝ a b ↔ x = a ∨ x = b ∨ cosE (a - x) (b - x) = -1 := by
  rw [cosE_eq_neg_one_iff, mem_segment_iff_wbtw, Sbtw]
  constructor
  · intro h
    by_cases h1 : x = a
    · exact Or.inl h1
    · by_cases h2 : x = b
      · exact Or.inr (Or.inl h2)
      · exact Or.inr (Or.inr ⟨h, h1, h2⟩)
  · rintro (rfl | rfl | h)
    · exact wbtw_self_left _ _ _
    · exact wbtw_self_right _ _ _
    · exact h.1

/-- C64: `contains_point` always answers; it accepts every point of the segment for every accepted tolerance;
with exact comparison it accepts only those. -/
theorem C64_contains_point {a b : E n} {S : LineSegment ℝ} (h : LineSegment.new (arr a) (arr b) = .ok S)
    (x : E n) {tol : Tol ℝ} (ht : tol.Nonneg) :
    (∃ r : Bool, S.containsPoint tol (arr x) = .ok r) ∧
    (x ∈ segment ℝ a b → S.containsPoint tol (arr x) = .ok true) ∧
    (S.containsPoint Tol.exact (arr x) = .ok true ↔ x ∈ segment ℝ a b) := by
  obtain ⟨hn, hab, rfl⟩ := LineSegment.new_ok h
  rw [LineSegment.containsPoint_arr _ _ _ ht, LineSegment.containsPoint_arr _ _ _ Tol.exact_nonneg]
  refine ⟨⟨_, rfl⟩, ?_, ?_⟩
  · intro hx
    simp only [Except.ok.injEq, decide_eq_true_eq]
    rcases mem_segment_iff_cos.mp hx with rfl | rfl | hc
    · left; simpa using Close.refl ht 0
    · right; left; simpa using Close.refl ht 0
    · right; right; rw [hc]; exact Close.refl ht _
  · rw [mem_segment_iff_cos]
    simp only [Except.ok.injEq, decide_eq_true_eq, close_exact]
    rw [sq_eq_zero_iff, norm_eq_zero, sub_eq_zero, sq_eq_zero_iff, norm_eq_zero, sub_eq_zero, eq_comm (a := a),
      eq_comm (a := b)]

/-- C64: with the default tolerances a point is accepted exactly if it is an endpoint or sees the endpoints
under an angle whose cosine is at most `-1 + 1e-9`. -/
theorem C64_contains_point_default {a b : E n} {S : LineSegment ℝ}
    (h : LineSegment.new (arr a) (arr b) = .ok S) (x : E n) :
    S.containsPoint Tol.default (arr x) = .ok true ↔
      x = a ∨ x = b ∨ Real.cos (∠ a x b) ≤ -1 + 1 / 1000000000 := by
  obtain ⟨hn, hab, rfl⟩ := LineSegment.new_ok h
  rw [LineSegment.containsPoint_arr _ _ _ Tol.default_nonneg]
  have hcos : Real.cos (∠ a x b) = cosE (a - x) (b - x) := (cosE_eq_cos _ _).symm
  rw [hcos]
  have hb := abs_le.mp (abs_cosE_le_one (a - x) (b - x))
  have hc : Close Tol.default (cosE (a - x) (b - x)) (-1) ↔ cosE (a - x) (b - x) ≤ -1 + 1 / 1000000000 := by
    simp only [Close, Tol.default_rel, Tol.default_abs]
    rw [max_eq_left (by positivity), abs_neg, abs_one, max_eq_right (abs_le.mpr hb), sub_neg_eq_add,
      abs_of_nonneg (by linarith [hb.1])]
    constructor <;> intro h <;> linarith
  simp only [Except.ok.injEq, decide_eq_true_eq, close_default_zero, hc]
  rw [sq_eq_zero_iff, norm_eq_zero, sub_eq_zero, sq_eq_zero_iff, norm_eq_zero, sub_eq_zero, eq_comm (a := a),
    eq_comm (a := b)]

theorem near_segment_scalar {P Q I s δ c : ℝ} (hδ : 0 ≤ δ) (hc : δ ≤ 8 * c ^ 2 * (1 - δ))
    (hP : 0 < P) (hQ : 0 < Q) (hs : s = P + Q) (h : I ≤ (-1 + δ) * (P * Q)) :
    2 * P ^ 2 * Q ^ 2 + 2 * P * Q * I ≤ s ^ 2 * (c ^ 2 * (P ^ 2 - 2 * I + Q ^ 2)) := by
  subst hs
  have hPQ : 0 < P * Q := by positivity
  have h4 : 4 * (P * Q) ≤ (P + Q) ^ 2 := by nlinarith [sq_nonneg (P - Q)]
  have h1 : 2 * P ^ 2 * Q ^ 2 + 2 * P * Q * I ≤ 2 * δ * (P * Q) ^ 2 := by nlinarith
  have h2 : (1 - δ) * (P + Q) ^ 2 ≤ P ^ 2 - 2 * I + Q ^ 2 := by nlinarith
  have h3 : (P * Q) ^ 2 ≤ ((P + Q) ^ 2) ^ 2 / 16 := by nlinarith
  have h5 : (P + Q) ^ 2 * ((1 - δ) * (P + Q) ^ 2) ≤ (P + Q) ^ 2 * (P ^ 2 - 2 * I + Q ^ 2) :=
    mul_le_mul_of_nonneg_left h2 (by positivity)
  calc _ ≤ 2 * δ * (P * Q) ^ 2 := h1
    _ ≤ 2 * δ * (((P + Q) ^ 2) ^ 2 / 16) := mul_le_mul_of_nonneg_left h3 (by positivity)
    _ = δ * (((P + Q) ^ 2) ^ 2 / 8) := by ring
    _ ≤ 8 * c ^ 2 * (1 - δ) * (((P + Q) ^ 2) ^ 2 / 8) := mul_le_mul_of_nonneg_right hc (by positivity)
    _ = c ^ 2 * ((P + Q) ^ 2 * ((1 - δ) * (P + Q) ^ 2)) := by ring
    _ ≤ c ^ 2 * ((P + Q) ^ 2 * (P ^ 2 - 2 * I + Q ^ 2)) := mul_le_mul_of_nonneg_left h5 (by positivity)
    _ = _ := by ring

theorem near_segment_gen {a b x : E n} {δ c : ℝ} (hδ : 0 ≤ δ) (hδ1 : δ < 1) (hc0 : 0 ≤ c)
    (hc : δ ≤ 8 * c ^ 2 * (1 - δ)) (h : x = a ∨ x = b ∨ Real.cos (∠ a x b) ≤ -1 + δ) :
    ∃ y ∈ segment ℝ a b, dist x y ≤ c * dist a b := by
  rcases h with rfl | rfl | h
  · exact ⟨x, left_mem_segment _ _ _, by rw [dist_self]; positivity⟩
  · exact ⟨x, right_mem_segment _ _ _, by rw [dist_self]; positivity⟩
  · obtain ⟨p, hp⟩ : ∃ p, p = a - x := ⟨_, rfl⟩
    obtain ⟨q, hq⟩ : ∃ q, q = b - x := ⟨_, rfl⟩
    have hcos : Real.cos (∠ a x b) = inner ℝ p q / (‖p‖ * ‖q‖) := by
      rw [hp, hq]; exact (cosE_eq_cos _ _).symm
    rw [hcos] at h
    have hp0 : 0 < ‖p‖ := by
      rw [norm_pos_iff]; rintro rfl; simp at h; linarith
    have hq0 : 0 < ‖q‖ := by
      rw [norm_pos_iff]; rintro rfl; simp at h; linarith
    rw [div_le_iff₀ (by positivity)] at h
    have ha : a = x + p := by rw [hp]; abel
    have hb : b = x + q := by rw [hq]; abel
    subst ha hb
    obtain ⟨s, hs⟩ : ∃ s, s = ‖p‖ + ‖q‖ := ⟨_, rfl⟩
    have hs0 : 0 < s := by rw [hs]; positivity
    refine ⟨(‖q‖ / s) • (x + p) + (‖p‖ / s) • (x + q), ⟨‖q‖ / s, ‖p‖ / s, by positivity, by positivity,
      by rw [← add_div, add_comm, ← hs, div_self hs0.ne'], rfl⟩, ?_⟩
    have e : (‖q‖ / s) • (x + p) + (‖p‖ / s) • (x + q) = x + s⁻¹ • (‖q‖ • p + ‖p‖ • q) := by
      have : ‖q‖ / s + ‖p‖ / s = 1 := by rw [← add_div, add_comm, ← hs, div_self hs0.ne']
      have h1 : ‖q‖ / s = 1 - ‖p‖ / s := by linarith
      rw [smul_add, smul_add, smul_add, smul_smul, smul_smul, inv_mul_eq_div, inv_mul_eq_div]
      nth_rw 1 [h1]
      module
    rw [e, dist_self_add_right, norm_smul, norm_inv, Real.norm_of_nonneg hs0.le, inv_mul_le_iff₀ hs0]
    apply le_of_sq_le_sq _ (by positivity)
    have e1 : ‖‖q‖ • p + ‖p‖ • q‖ ^ 2 = 2 * ‖p‖ ^ 2 * ‖q‖ ^ 2 + 2 * ‖p‖ * ‖q‖ * inner ℝ p q := by
      rw [norm_add_sq_real, norm_smul, norm_smul, real_inner_smul_left, real_inner_smul_right,
        norm_norm, norm_norm]; ring
    have e2 : dist (x + p) (x + q) ^ 2 = ‖p‖ ^ 2 - 2 * inner ℝ p q + ‖q‖ ^ 2 := by
      rw [dist_eq_norm, ← norm_sub_sq_real]; congr 2; abel
    rw [mul_pow, mul_pow, e1, e2]
    clear e e1 e2 hcos hp hq
    generalize ‖p‖ = P, ‖q‖ = Q, (inner ℝ p q : ℝ) = I at *
    exact near_segment_scalar hδ hc hp0 hq0 hs h

theorem near_segment {a b x : E n} (h : x = a ∨ x = b ∨ Real.cos (∠ a x b) ≤ -1 + 1 / 1000000000) :
    ∃ y ∈ segment ℝ a b, dist x y ≤ 12 / 1000000 * dist a b :=
  near_segment_gen (by norm_num) (by norm_num) (by norm_num) (by norm_num) h

/-- C64: every point accepted with the default tolerances is within `1.2e-5` of the length of the segment
from a point of the segment. -/
theorem C64_accepted_near {a b : E n} {S : LineSegment ℝ} (h : LineSegment.new (arr a) (arr b) = .ok S)
    {x : E n} (hx : S.containsPoint Tol.default (arr x) = .ok true) :
    ∃ y ∈ segment ℝ a b, dist x y ≤ 12 / 1000000 * dist a b :=
  near_segment ((C64_contains_point_default h x).mp hx)

/-- C64, consequence of the tolerance: a point at distance `1e-5` from a segment of length 2 is accepted. -/
theorem C64_accepts_points_off_the_segment : ∃ S : LineSegment ℝ,
    LineSegment.new (arr (vec2 (-1) 0)) (arr (vec2 1 0)) = .ok S ∧
    vec2 0 (1 / 100000) ∉ segment ℝ (vec2 (-1) 0) (vec2 1 0) ∧
    S.containsPoint Tol.default (arr (vec2 0 (1 / 100000))) = .ok true := by
  have hS : LineSegment.new (arr (vec2 (-1) 0)) (arr (vec2 1 0)) = .ok ⟨arr (vec2 (-1) 0), arr (vec2 1 0)⟩ :=
    (C63_constructor _ _).2.1 0 (by simp [vec2]; norm_num)
  refine ⟨_, hS, ?_, ?_⟩
  · rintro ⟨u, v, hu, hv, huv, he⟩
    have := congrArg (fun z : E 2 => z 1) he
    simp [vec2] at this
  · rw [C64_contains_point_default hS]
    right; right
    have hcos : Real.cos (∠ (vec2 (-1) 0) (vec2 0 (1 / 100000)) (vec2 1 0)) =
      cosE (vec2 (-1) 0 - vec2 0 (1 / 100000)) (vec2 1 0 - vec2 0 (1 / 100000)) := (cosE_eq_cos _ _).symm
    have hnorm : ∀ z : E 2, ‖z‖ = Real.sqrt (z 0 ^ 2 + z 1 ^ 2) := by
      intro z; rw [EuclideanSpace.norm_eq]; simp [Fin.sum_univ_two]
    have e1 : ‖vec2 (-1) 0 - vec2 0 (1 / 100000)‖ = ‖vec2 1 0 - vec2 0 (1 / 100000)‖ := by
      rw [hnorm, hnorm]; simp [vec2]
    rw [hcos, cosE, e1, hnorm, Real.mul_self_sqrt (by positivity)]
    simp [vec2, PiLp.inner_apply, Fin.sum_univ_two]
    norm_num

/-! ## C65: `intersect_line_segment` -/

variable [NumpyExt ℝ] [LawfulNumpy]

theorem LineSegment.intersect_arr [NeZero n] {a b c d : E n} (hab : a ≠ b) (hcd : c ≠ d) (check : Bool) (tol : Tol ℝ) :
    LineSegment.intersectLineSegment ⟨arr a, arr b⟩ ⟨arr c, arr d⟩ check tol =
      (Line.intersectLine ⟨arr a, arr (b - a)⟩ ⟨arr c, arr (d - c)⟩ check tol >>= fun p =>
        LineSegment.containsPoint Tol.default ⟨arr a, arr b⟩ p >>= fun onA =>
        LineSegment.containsPoint Tol.default ⟨arr c, arr d⟩ p >>= fun onB =>
        if !(onA && onB) then .error (.valueError "The line segments must intersect.") else pure p) := by
  simp only [LineSegment.intersectLineSegment, fromPoints_line hab, fromPoints_line hcd, ok_bind]

/-- `intersect_line` on lines of equal dimension: an error (always `ValueError`) or a point of the first line. -/
theorem intersectLine_cases [NeZero n] (p d q e : E n) (check : Bool) {tol : Tol ℝ} (ht : tol.Nonneg) :
    (∃ msg, Line.intersectLine ⟨arr p, arr d⟩ ⟨arr q, arr e⟩ check tol = .error (.valueError msg)) ∨
    ∃ y ∈ lineSet p d, Line.intersectLine ⟨arr p, arr d⟩ ⟨arr q, arr e⟩ check tol = .ok (arr y) := by
  by_cases h3 : 3 < n
  · left; exact ⟨_, by simp [Line.intersectLine, Line.dimension, h3]; rfl⟩
  by_cases hp : ParallelTol tol d e
  · left
    exact ⟨_, by simp [Line.intersectLine, Line.dimension, isParallel_arr ht, hp, h3]; rfl⟩
  obtain ⟨b0, b1, b2, -, -, h2, -⟩ := C22_predicates (P := [p, p + d, q, q + e]) (by simp) none (by simp)
  have hco := Line.isCoplanar_arr none p d q e
  rw [h2] at hco
  by_cases hc : check = true ∧ b2 = false
  · left
    obtain ⟨rfl, rfl⟩ := hc
    exact ⟨_, by simp [Line.intersectLine, Line.dimension, isParallel_arr ht, hp, h3, hco]; rfl⟩
  · right
    refine ⟨_, ⟨_, rfl⟩, intersectLine_arr (by omega) p d q e check ht hp ?_⟩
    intro h
    rw [hco]
    cases b2 with
    | true => rfl
    | false => exact absurd ⟨h, rfl⟩ hc

/-- C65: completeness.  Segments in dimension at most 3 that share a point `x` and whose directions are not
accepted as parallel: `x` is returned, from either segment, with or without the coplanarity check. -/
theorem C65_intersect_complete {a b c d x : E n} {S S' : LineSegment ℝ} (hn3 : n ≤ 3)
    (hS : LineSegment.new (arr a) (arr b) = .ok S) (hS' : LineSegment.new (arr c) (arr d) = .ok S')
    (hx : x ∈ segment ℝ a b) (hx' : x ∈ segment ℝ c d) (check : Bool) {tol : Tol ℝ} (ht : tol.Nonneg)
    (hpar : Vec.isParallel tol (arr (b - a)) (arr (d - c)) = .ok false) :
    S.intersectLineSegment S' check tol = .ok (arr x) ∧ S'.intersectLineSegment S check tol = .ok (arr x) ∧
      segment ℝ a b ∩ segment ℝ c d = {x} := by
  have c1 := (C64_contains_point hS x Tol.default_nonneg).2.1 hx
  have c2 := (C64_contains_point hS' x Tol.default_nonneg).2.1 hx'
  obtain ⟨hn, hab, rfl⟩ := LineSegment.new_ok hS
  obtain ⟨-, hcd, rfl⟩ := LineSegment.new_ok hS'
  have seg : ∀ {p q y : E n}, y ∈ segment ℝ p q → y ∈ lineSet p (q - p) := by
    rintro p q y ⟨u, v, -, -, huv, rfl⟩
    refine ⟨v, ?_⟩
    have : u = 1 - v := by linarith
    rw [this]; module
  obtain ⟨h1, h2, h3⟩ := C28_intersect_line_complete hn3 (Line.new_arr a (sub_ne_zero.mpr hab.symm))
    (Line.new_arr c (sub_ne_zero.mpr hcd.symm)) (seg hx) (seg hx') check ht hpar
  refine ⟨?_, ?_, ?_⟩
  · rw [LineSegment.intersect_arr hab hcd, h1]; simp [c1, c2]
  · rw [LineSegment.intersect_arr hcd hab, h2]; simp [c1, c2]
  · ext y
    constructor
    · rintro ⟨hy, hy'⟩; exact h3 y (seg hy) (seg hy')
    · rintro rfl; exact ⟨hx, hx'⟩

/-- C65: soundness.  Anything returned is a point of the line of the first segment that `contains_point`
accepts on both segments, hence within `1.2e-5` of the segment length from both; if the carrying lines
meet (always in 2D) it is their only common point. -/
theorem C65_intersect_sound {a b c d : E n} {S S' : LineSegment ℝ}
    (hS : LineSegment.new (arr a) (arr b) = .ok S) (hS' : LineSegment.new (arr c) (arr d) = .ok S')
    (check : Bool) {tol : Tol ℝ} (ht : tol.Nonneg) {l : List ℝ} (h : S.intersectLineSegment S' check tol = .ok l) :
    ∃ y : E n, l = arr y ∧ y ∈ lineSet a (b - a) ∧
      S.containsPoint Tol.default (arr y) = .ok true ∧ S'.containsPoint Tol.default (arr y) = .ok true ∧
      (∃ z ∈ segment ℝ a b, dist y z ≤ 12 / 1000000 * dist a b) ∧
      (∃ z ∈ segment ℝ c d, dist y z ≤ 12 / 1000000 * dist c d) ∧
      (n = 2 ∨ (∃ x, x ∈ lineSet a (b - a) ∧ x ∈ lineSet c (d - c)) →
        y ∈ lineSet c (d - c) ∧ ∀ z, z ∈ lineSet a (b - a) → z ∈ lineSet c (d - c) → z = y) := by
  have n1 := fun x => C64_accepted_near hS (x := x)
  have n2 := fun x => C64_accepted_near hS' (x := x)
  obtain ⟨hn, hab, rfl⟩ := LineSegment.new_ok hS
  obtain ⟨-, hcd, rfl⟩ := LineSegment.new_ok hS'
  rw [LineSegment.intersect_arr hab hcd] at h
  obtain ⟨p, hp, h⟩ := bind_ok_iff.mp h
  obtain ⟨r1, e1, h⟩ := bind_ok_iff.mp h
  obtain ⟨r2, e2, h⟩ := bind_ok_iff.mp h
  rcases intersectLine_cases a (b - a) c (d - c) check ht with ⟨msg, hm⟩ | ⟨y, hy, hm⟩
  · rw [hm] at hp; cases hp
  have hsound := C28_intersect_line_sound (Line.new_arr a (sub_ne_zero.mpr hab.symm))
    (Line.new_arr c (sub_ne_zero.mpr hcd.symm)) check ht hp
  rw [hm] at hp
  injection hp with hp
  subst hp
  cases r1 with
  | false => simp at h
  | true =>
    cases r2 with
    | false => simp at h
    | true =>
      have hl : arr y = l := by simpa using h
      subst hl
      refine ⟨y, rfl, hy, e1, e2, n1 _ e1, n2 _ e2, fun hmeet => ?_⟩
      obtain ⟨y', he, h1, h2, h3⟩ := hsound hmeet
      rw [arr_injective he]
      exact ⟨h2, h3⟩

/-- C65: with segments of the same dimension the only failure is `ValueError`; it is certain in dimension
above 3, for directions accepted as parallel, and (in 2D, or whenever the carrying lines meet) when the
common point of the lines is not accepted by both segments. -/
theorem C65_intersect_errors {a b c d : E n} {S S' : LineSegment ℝ}
    (hS : LineSegment.new (arr a) (arr b) = .ok S) (hS' : LineSegment.new (arr c) (arr d) = .ok S')
    (check : Bool) {tol : Tol ℝ} (ht : tol.Nonneg) :
    ((∃ l, S.intersectLineSegment S' check tol = .ok l) ∨
      ∃ msg, S.intersectLineSegment S' check tol = .error (.valueError msg)) ∧
    (3 < n ∨ Vec.isParallel tol (arr (b - a)) (arr (d - c)) = .ok true ∨
      (∃ x, x ∈ lineSet a (b - a) ∧ x ∈ lineSet c (d - c) ∧
        ¬ (S.containsPoint Tol.default (arr x) = .ok true ∧ S'.containsPoint Tol.default (arr x) = .ok true)) →
      ∃ msg, S.intersectLineSegment S' check tol = .error (.valueError msg)) := by
  have hsound := fun l => C65_intersect_sound hS hS' check ht (l := l)
  have t1 := fun x => (C64_contains_point hS x Tol.default_nonneg).1
  have t2 := fun x => (C64_contains_point hS' x Tol.default_nonneg).1
  obtain ⟨hn, hab, rfl⟩ := LineSegment.new_ok hS
  obtain ⟨-, hcd, rfl⟩ := LineSegment.new_ok hS'
  have total : (∃ l, LineSegment.intersectLineSegment ⟨arr a, arr b⟩ ⟨arr c, arr d⟩ check tol = .ok l) ∨
      ∃ msg, LineSegment.intersectLineSegment ⟨arr a, arr b⟩ ⟨arr c, arr d⟩ check tol = .error (.valueError msg) := by
    rw [LineSegment.intersect_arr hab hcd]
    rcases intersectLine_cases a (b - a) c (d - c) check ht with ⟨msg, hm⟩ | ⟨y, hy, hm⟩
    · right; exact ⟨msg, by rw [hm]; rfl⟩
    · obtain ⟨r1, e1⟩ := t1 y
      obtain ⟨r2, e2⟩ := t2 y
      rw [hm]
      simp only [ok_bind, e1, e2]
      cases r1 <;> cases r2 <;> simp
  refine ⟨total, fun hbad => ?_⟩
  have lA := Line.new_arr a (sub_ne_zero.mpr hab.symm)
  have lB := Line.new_arr c (sub_ne_zero.mpr hcd.symm)
  rcases hbad with h | h | ⟨x, h1, h2, h3⟩
  · obtain ⟨msg, hm⟩ := (C28_intersect_line_errors lA lB check tol).1 (Or.inr (Or.inl h))
    exact ⟨msg, by rw [LineSegment.intersect_arr hab hcd, hm]; rfl⟩
  · obtain ⟨msg, hm⟩ := (C28_intersect_line_errors lA lB check tol).1 (Or.inr (Or.inr (Or.inl h)))
    exact ⟨msg, by rw [LineSegment.intersect_arr hab hcd, hm]; rfl⟩
  · rcases total with ⟨l, hl⟩ | hl
    · exfalso
      obtain ⟨y, -, -, c1, c2, -, -, hy⟩ := hsound l hl
      have := (hy (Or.inr ⟨x, h1, h2⟩)).2 x h1 h2
      subst this
      exact h3 ⟨c1, c2⟩
    · exact hl

/-- C65: symmetry, in 2D and whenever the carrying lines meet. -/
theorem C65_intersect_symmetric {a b c d : E n} {S S' : LineSegment ℝ}
    (hS : LineSegment.new (arr a) (arr b) = .ok S) (hS' : LineSegment.new (arr c) (arr d) = .ok S')
    (check : Bool) {tol : Tol ℝ} (ht : tol.Nonneg)
    (hmeet : n = 2 ∨ ∃ x, x ∈ lineSet a (b - a) ∧ x ∈ lineSet c (d - c)) (l : List ℝ) :
    S.intersectLineSegment S' check tol = .ok l ↔ S'.intersectLineSegment S check tol = .ok l := by
  have half : ∀ {a b c d : E n} {S S' : LineSegment ℝ}, LineSegment.new (arr a) (arr b) = .ok S →
      LineSegment.new (arr c) (arr d) = .ok S' →
      (n = 2 ∨ ∃ x, x ∈ lineSet a (b - a) ∧ x ∈ lineSet c (d - c)) →
      S.intersectLineSegment S' check tol = .ok l → S'.intersectLineSegment S check tol = .ok l := by
    intro a b c d S S' hS hS' hmeet h
    obtain ⟨y, rfl, h1, c1, c2, -, -, hy⟩ := C65_intersect_sound hS hS' check ht h
    obtain ⟨h2, -⟩ := hy hmeet
    obtain ⟨hn, hab, rfl⟩ := LineSegment.new_ok hS
    obtain ⟨-, hcd, rfl⟩ := LineSegment.new_ok hS'
    have lA := Line.new_arr a (sub_ne_zero.mpr hab.symm)
    have lB := Line.new_arr c (sub_ne_zero.mpr hcd.symm)
    rw [LineSegment.intersect_arr hab hcd] at h
    obtain ⟨p, hp, h⟩ := bind_ok_iff.mp h
    have hn3 : n ≤ 3 := by
      by_contra hc
      obtain ⟨msg, hm⟩ := (C28_intersect_line_errors lA lB check tol).1 (Or.inr (Or.inl (by omega)))
      rw [hm] at hp; cases hp
    have hpar : Vec.isParallel tol (arr (b - a)) (arr (d - c)) = .ok false := by
      by_cases hc : Vec.isParallel tol (arr (b - a)) (arr (d - c)) = .ok true
      · obtain ⟨msg, hm⟩ := (C28_intersect_line_errors lA lB check tol).1 (Or.inr (Or.inr (Or.inl hc)))
        rw [hm] at hp; cases hp
      · rw [isParallel_arr ht] at hc ⊢
        simpa using hc
    have := (C28_intersect_line_complete hn3 lA lB h1 h2 check ht hpar).2.1
    rw [LineSegment.intersect_arr hcd hab, this]
    simp [c1, c2]
  refine ⟨half hS hS' hmeet, half hS' hS ?_⟩
  rcases hmeet with h | ⟨x, h1, h2⟩
  · exact Or.inl h
  · exact Or.inr ⟨x, h2, h1⟩

/-- Non-vacuity: the segments of the docstring. -/
example : ∃ S S' : LineSegment ℝ, LineSegment.new (arr (vec2 (-1) 0)) (arr (vec2 1 0)) = .ok S ∧
    LineSegment.new (arr (vec2 0 (-1))) (arr (vec2 0 1)) = .ok S' ∧
    S.intersectLineSegment S' true Tol.default = .ok (arr (vec2 0 0)) := by
  have h1 := (C63_constructor (vec2 (-1) 0) (vec2 1 0)).2.1 0 (by simp [vec2]; norm_num)
  have h2 := (C63_constructor (vec2 0 (-1)) (vec2 0 1)).2.1 1 (by simp [vec2]; norm_num)
  refine ⟨_, _, h1, h2, (C65_intersect_complete (by norm_num) h1 h2 (x := vec2 0 0) ?_ ?_ true
    Tol.default_nonneg ?_).1⟩
  · exact ⟨1 / 2, 1 / 2, by norm_num, by norm_num, by norm_num, by ext i; fin_cases i <;> simp [vec2]⟩
  · exact ⟨1 / 2, 1 / 2, by norm_num, by norm_num, by norm_num, by ext i; fin_cases i <;> simp [vec2]⟩
  · have e1 : vec2 1 0 - vec2 (-1) 0 = vec2 2 0 := by ext i; fin_cases i <;> simp [vec2]; norm_num
    have e2 : vec2 0 1 - vec2 0 (-1) = vec2 0 2 := by ext i; fin_cases i <;> simp [vec2]; norm_num
    rw [e1, e2, isParallel_default_arr]
    have : ¬ NearParallel (vec2 2 0) (vec2 0 2) := by
      unfold NearParallel cosE
      have h1 : vec2 2 0 ≠ 0 := fun h => by have := congrArg (fun z : E 2 => z 0) h; simp [vec2] at this
      have h2 : vec2 0 2 ≠ 0 := fun h => by have := congrArg (fun z : E 2 => z 1) h; simp [vec2] at this
      simp only [h1, h2, false_or]
      simp [vec2, PiLp.inner_apply, Fin.sum_univ_two]
      norm_num
    simp [this]

end SkSpatial
