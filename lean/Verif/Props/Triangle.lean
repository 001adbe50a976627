import Verif.Model.Triangle
import Verif.Lemmas.Collinear3
import Verif.Props.Measurement
import Mathlib.Geometry.Euclidean.Triangle
import Mathlib.Analysis.Convex.StrictConvexBetween
import Mathlib.Analysis.InnerProductSpace.Convex
import Mathlib.Geometry.Euclidean.Angle.Unoriented.RightAngle
/-! # C56 - C58, C60 - C62: triangles

A constructed triangle is written `Triangle.new (arr a) (arr b) (arr c) = .ok T`. -/

namespace SkSpatial
open EuclideanGeometry

variable {n : ℕ} [NumpyExt ℝ] [LawfulNumpy]

/-! ## C62: the constructor and the centroid -/

omit [LawfulNumpy] in
theorem Triangle.new_arr [NeZero n] {a b c : E n}
    (h : Pts.areCollinear none (rows [a, b, c]) = .ok false) :
    Triangle.new (arr a) (arr b) (arr c) = .ok ⟨arr a, arr b, arr c⟩ := by
  have hp := newPoints_rows (P := [a, b, c]) (by simp)
  simp only [rows, List.map_cons, List.map_nil] at hp h
  simp [Triangle.new, hp, h]

theorem not_collinear_of_false [NeZero n] {a b c : E n}
    (h : Pts.areCollinear none (rows [a, b, c]) = .ok false) : ¬ Collinear ℝ ({a, b, c} : Set (E n)) := by
  intro hc
  obtain ⟨b0, b1, b2, -, h1, -, -, hcol, -⟩ := C22_predicates (P := [a, b, c]) (by simp) none (by simp)
  have hset : ({x | x ∈ [a, b, c]} : Set (E n)) = {a, b, c} := by ext x; simp
  rw [h1, hcol (by rw [hset]; exact hc)] at h
  cases h

theorem Triangle.new_ok {a b c : E n} {T : Triangle ℝ} (h : Triangle.new (arr a) (arr b) (arr c) = .ok T) :
    NeZero n ∧ Pts.areCollinear none (rows [a, b, c]) = .ok false ∧ T = ⟨arr a, arr b, arr c⟩ := by
  have hn : NeZero n := by
    unfold Triangle.new at h
    obtain ⟨a', ha, -⟩ := bind_ok_iff.mp h
    exact ⟨(new1D_ok ha).1⟩
  have hp := newPoints_rows (P := [a, b, c]) (by simp)
  obtain ⟨b0, b1, b2, -, h1, -⟩ := C22_predicates (P := [a, b, c]) (by simp) none (by simp)
  cases b1 with
  | false =>
    refine ⟨hn, h1, ?_⟩
    rw [Triangle.new_arr h1] at h
    cases h; rfl
  | true =>
    exfalso
    simp only [rows, List.map_cons, List.map_nil] at hp h1
    simp [Triangle.new, hp, h1] at h

/-- What the vertices of a constructed triangle satisfy. -/
theorem Triangle.facts {a b c : E n} {T : Triangle ℝ} (h : Triangle.new (arr a) (arr b) (arr c) = .ok T) :
    NeZero n ∧ T = ⟨arr a, arr b, arr c⟩ ∧ ¬ Collinear ℝ ({a, b, c} : Set (E n)) ∧ a ≠ b ∧ b ≠ c ∧ a ≠ c := by
  obtain ⟨hn, hf, hT⟩ := Triangle.new_ok h
  have hc := not_collinear_of_false hf
  refine ⟨hn, hT, hc, ?_, ?_, ?_⟩
  · rintro rfl; apply hc; simp [collinear_pair]
  · rintro rfl; apply hc; simp [collinear_pair]
  · rintro rfl; apply hc; rw [Set.insert_comm]; simp [collinear_pair]

/-- C62: the constructor fails on collinear points and otherwise succeeds unless the triangle is too thin
for NumPy's rank tolerance (`heron16` is sixteen times the squared area, `rankEps n = max(3, n) * 2⁻⁵²`;
the restriction on the dimension is that of any array that fits in memory). -/
theorem C62_constructor [NeZero n] (hn : n < 2 ^ 50) (a b c : E n) :
    ((∃ T, Triangle.new (arr a) (arr b) (arr c) = .ok T) ↔
      4 * rankEps n ^ 2 * (dist a b ^ 2 + dist b c ^ 2 + dist c a ^ 2) ^ 2 <
        3 * heron16 a b c * (1 + rankEps n ^ 2) ^ 2) ∧
    (Collinear ℝ ({a, b, c} : Set (E n)) → ∃ msg, Triangle.new (arr a) (arr b) (arr c) = .error (.valueError msg)) ∧
    ((∀ T, Triangle.new (arr a) (arr b) (arr c) ≠ .ok T) →
      ∃ msg, Triangle.new (arr a) (arr b) (arr c) = .error (.valueError msg)) := by
  have h := areCollinear_three hn a b c
  have hp := newPoints_rows (P := [a, b, c]) (by simp)
  have herr : Pts.areCollinear none (rows [a, b, c]) = .ok true →
      Triangle.new (arr a) (arr b) (arr c) = .error (.valueError "The points must not be collinear.") := by
    intro h1
    simp only [rows, List.map_cons, List.map_nil] at hp h1
    simp [Triangle.new, hp, h1]
  refine ⟨⟨?_, ?_⟩, ?_, ?_⟩
  · rintro ⟨T, hT⟩
    have := (Triangle.new_ok hT).2.1
    rw [h] at this
    injection this with this
    rw [decide_eq_false_iff_not, not_not] at this
    exact this
  · intro hlt
    refine ⟨_, Triangle.new_arr ?_⟩
    rw [h, decide_eq_false]
    rw [not_not]; exact hlt
  · intro hc
    refine ⟨_, herr ?_⟩
    obtain ⟨b0, b1, b2, -, h1, -, -, hcol, -⟩ := C22_predicates (P := [a, b, c]) (by simp) none (by simp)
    have hset : ({x | x ∈ [a, b, c]} : Set (E n)) = {a, b, c} := by ext x; simp
    rw [h1, hcol (by rw [hset]; exact hc)]
  · intro hno
    refine ⟨_, herr ?_⟩
    obtain ⟨b0, b1, b2, -, h1, -⟩ := C22_predicates (P := [a, b, c]) (by simp) none (by simp)
    cases b1 with
    | true => exact h1
    | false => exact absurd (Triangle.new_arr h1) (hno _)

omit [LawfulNumpy] in
/-- C62: points of different dimensions are rejected. -/
theorem C62_dimension {m k : ℕ} [NeZero n] [NeZero m] [NeZero k] (a : E n) (b : E m) (c : E k)
    (h : ¬ (n = m ∧ m = k)) : ∃ msg, Triangle.new (arr a) (arr b) (arr c) = .error (.valueError msg) := by
  refine ⟨"The points must have the same dimension.", ?_⟩
  have : (decide (n = m) && decide (m = k)) = false := by
    rw [Bool.and_eq_false_iff, decide_eq_false_iff_not, decide_eq_false_iff_not]
    tauto
  simp only [Triangle.new, new1D_arr, ok_bind, length_arr, this, Bool.not_false, if_true]

/-- C62: the order of the vertices does not matter for the constructor. -/
theorem C62_order {a b c : E n} {T : Triangle ℝ} (h : Triangle.new (arr a) (arr b) (arr c) = .ok T)
    (σ : Equiv.Perm (Fin 3)) : Triangle.new (arr (![a, b, c] (σ 0))) (arr (![a, b, c] (σ 1)))
      (arr (![a, b, c] (σ 2))) =
        .ok ⟨arr (![a, b, c] (σ 0)), arr (![a, b, c] (σ 1)), arr (![a, b, c] (σ 2))⟩ := by
  obtain ⟨hn, hf, -⟩ := Triangle.new_ok h
  apply Triangle.new_arr
  obtain ⟨b0, b1, b2, -, h1, -, -, -, -, -, -, hperm, -⟩ := C22_predicates (P := [a, b, c]) (by simp) none (by simp)
  have := (hperm [![a, b, c] (σ 0), ![a, b, c] (σ 1), ![a, b, c] (σ 2)] ?_).2.1
  · rw [this, ← h1, hf]
  · intro x
    have e : ∀ y : E n, y ∈ [![a, b, c] (σ 0), ![a, b, c] (σ 1), ![a, b, c] (σ 2)] ↔ ∃ i, y = ![a, b, c] (σ i) := by
      intro y; simp [Fin.exists_fin_succ]
    have e2 : ∀ y : E n, y ∈ [a, b, c] ↔ ∃ i : Fin 3, y = ![a, b, c] i := by
      intro y; simp [Fin.exists_fin_succ]
    rw [e, e2]
    constructor
    · rintro ⟨i, hi⟩; exact ⟨_, hi⟩
    · rintro ⟨i, hi⟩; exact ⟨σ.symm i, by simpa using hi⟩

/-- C62: the centroid is the mean of the vertices, strictly inside the triangle. -/
theorem C62_centroid {a b c : E n} {T : Triangle ℝ} (h : Triangle.new (arr a) (arr b) (arr c) = .ok T) :
    ∃ g : E n, T.centroid = .ok (arr g) ∧ g = (1 / 3 : ℝ) • (a + b + c) ∧
      g ∈ convexHull ℝ {a, b, c} ∧
      (∃ u v w : ℝ, 0 < u ∧ 0 < v ∧ 0 < w ∧ u + v + w = 1 ∧ g = u • a + v • b + w • c) := by
  obtain ⟨hn, rfl, -⟩ := Triangle.facts h
  have hc := centroid_rows (P := [a, b, c]) (by simp)
  have hp := newPoints_rows (P := [a, b, c]) (by simp)
  have hg : centroidE [a, b, c] = (1 / 3 : ℝ) • (a + b + c) := by
    simp [centroidE, add_assoc]
  simp only [rows, List.map_cons, List.map_nil] at hp hc
  have hsum : (1 / 3 : ℝ) • (a + b + c) = (1 / 3 : ℝ) • a + (1 / 3 : ℝ) • b + (1 / 3 : ℝ) • c := by
    rw [smul_add, smul_add]
  refine ⟨centroidE [a, b, c], by simp [Triangle.centroid, hp, hc], hg, ?_,
    1 / 3, 1 / 3, 1 / 3, by norm_num, by norm_num, by norm_num, by norm_num, by rw [hg, hsum]⟩
  rw [hg, hsum]
  have hcv := convex_convexHull ℝ ({a, b, c} : Set (E n))
  have ha : a ∈ convexHull ℝ ({a, b, c} : Set (E n)) := subset_convexHull ℝ _ (by simp)
  have hb : b ∈ convexHull ℝ ({a, b, c} : Set (E n)) := subset_convexHull ℝ _ (by simp)
  have hc' : c ∈ convexHull ℝ ({a, b, c} : Set (E n)) := subset_convexHull ℝ _ (by simp)
  have h1 := hcv ha hb (a := 1 / 2) (b := 1 / 2) (by norm_num) (by norm_num) (by norm_num)
  have h2 := hcv h1 hc' (a := 2 / 3) (b := 1 / 3) (by norm_num) (by norm_num) (by norm_num)
  convert h2 using 2
  rw [smul_add, smul_smul, smul_smul]; norm_num

/-! ## C57: names -/

section
variable [NeZero n] {a b c : E n}

omit [NumpyExt ℝ] [LawfulNumpy] [NeZero n] in
theorem fromPoints_line [NeZero n] {x y : E n} (h : x ≠ y) :
    Line.fromPoints (arr x) (arr y) = .ok ⟨arr x, arr (y - x)⟩ := by
  obtain ⟨L', h1, -, -, h2⟩ := (C23_from_points x y).2 h
  rw [Line.new_arr _ (sub_ne_zero.mpr h.symm)] at h2
  cases h2; exact h1

omit [NumpyExt ℝ] [LawfulNumpy] in
theorem Triangle.lengths_arr (hab : a ≠ b) (hbc : b ≠ c) (hac : a ≠ c) :
    Triangle.lengths (⟨arr a, arr b, arr c⟩ : Triangle ℝ) = .ok (dist b c, dist c a, dist a b) := by
  simp [Triangle.lengths, Triangle.length, Triangle.line, fromPoints_line hab, fromPoints_line hbc,
    fromPoints_line hac.symm, dist_eq_norm, norm_sub_rev]

omit [NumpyExt ℝ] [LawfulNumpy] [NeZero n] in
theorem cosine_law (hab : a ≠ b) (hac : a ≠ c) :
    mathAcos (((dist c a) ^ 2 + (dist a b) ^ 2 - (dist b c) ^ 2) / (2 * dist c a * dist a b)) =
      (.ok (∠ b a c) : Res ℝ) := by
  have hbc : dist b c ^ 2 = ‖b - a‖ ^ 2 - 2 * inner ℝ (b - a) (c - a) + ‖c - a‖ ^ 2 := by
    rw [dist_eq_norm, ← norm_sub_sq_real]; congr 2; abel
  have h1 : ‖b - a‖ ≠ 0 := norm_ne_zero_iff.mpr (sub_ne_zero.mpr hab.symm)
  have h2 : ‖c - a‖ ≠ 0 := norm_ne_zero_iff.mpr (sub_ne_zero.mpr hac.symm)
  have e : ((dist c a) ^ 2 + (dist a b) ^ 2 - (dist b c) ^ 2) / (2 * dist c a * dist a b) = cosE (b - a) (c - a) := by
    rw [hbc, dist_comm a b, dist_eq_norm, dist_eq_norm, cosE]
    field_simp
    ring
  rw [e]
  have h := abs_le.mp (abs_cosE_le_one (b - a) (c - a))
  simp only [mathAcos]
  simp [not_lt.mpr h.1, not_lt.mpr h.2]
  rfl
end

/-- C57: which side, vertex and angle each name means. -/
theorem C57_names {a b c : E n} {T : Triangle ℝ} (h : Triangle.new (arr a) (arr b) (arr c) = .ok T) :
    (T.point "A" = .ok (arr a) ∧ T.point "B" = .ok (arr b) ∧ T.point "C" = .ok (arr c)) ∧
    (T.line "a" = Line.fromPoints (arr b) (arr c) ∧ T.line "b" = Line.fromPoints (arr c) (arr a) ∧
      T.line "c" = Line.fromPoints (arr a) (arr b)) ∧
    (∀ s, s = "a" ∨ s = "b" ∨ s = "c" → ∃ L, T.line s = .ok L) ∧
    (T.length "a" = .ok (dist b c) ∧ T.length "b" = .ok (dist c a) ∧ T.length "c" = .ok (dist a b)) ∧
    (T.angle "A" = .ok (∠ b a c) ∧ T.angle "B" = .ok (∠ a b c) ∧ T.angle "C" = .ok (∠ a c b)) ∧
    (∀ s, s ≠ "a" → s ≠ "b" → s ≠ "c" → (∃ msg, T.line s = .error (.valueError msg)) ∧
      ∃ msg, T.length s = .error (.valueError msg)) ∧
    (∀ s, s ≠ "A" → s ≠ "B" → s ≠ "C" → (∃ msg, T.point s = .error (.valueError msg)) ∧
      (∃ msg, T.angle s = .error (.valueError msg)) ∧ ∃ msg, T.altitude s = .error (.valueError msg)) := by
  obtain ⟨hn, rfl, -, hab, hbc, hac⟩ := Triangle.facts h
  have hl := Triangle.lengths_arr hab hbc hac
  refine ⟨⟨rfl, rfl, rfl⟩, ⟨rfl, rfl, rfl⟩, ?_, ⟨?_, ?_, ?_⟩, ⟨?_, ?_, ?_⟩, ?_, ?_⟩
  · rintro s (rfl | rfl | rfl)
    · exact ⟨_, fromPoints_line hbc⟩
    · exact ⟨_, fromPoints_line hac.symm⟩
    · exact ⟨_, fromPoints_line hab⟩
  · simp [Triangle.length, Triangle.line, fromPoints_line hbc, dist_eq_norm, norm_sub_rev]
  · simp [Triangle.length, Triangle.line, fromPoints_line hac.symm, dist_eq_norm, norm_sub_rev]
  · simp [Triangle.length, Triangle.line, fromPoints_line hab, dist_eq_norm, norm_sub_rev]
  · have := cosine_law hab hac
    simp only [Triangle.angle, hl, ok_bind]
    simpa using this
  · have := cosine_law hab.symm hbc
    simp only [Triangle.angle, hl, ok_bind]
    rw [← this]
    simp [dist_comm c b, dist_comm a c, dist_comm b a]
  · have := cosine_law hac.symm hbc.symm
    simp only [Triangle.angle, hl, ok_bind]
    rw [← this]
    simp [dist_comm c b, dist_comm a c, dist_comm b a]
  · intro s h1 h2 h3
    have : Triangle.line (⟨arr a, arr b, arr c⟩ : Triangle ℝ) s =
        .error (.valueError "The side must be 'a', 'b', or 'c'.") := by simp [Triangle.line, h1, h2, h3]
    exact ⟨⟨_, this⟩, _, by rw [Triangle.length, this]; rfl⟩
  · intro s h1 h2 h3
    exact ⟨⟨_, by simp only [Triangle.point, h1, h2, h3, if_false]; rfl⟩,
      ⟨_, by simp only [Triangle.angle, hl, ok_bind, h1, h2, h3, if_false]; rfl⟩,
      ⟨_, by simp only [Triangle.altitude, h1, h2, h3, if_false]; rfl⟩⟩

/-! ## C58: angles -/

/-- C58: the three angles are returned (no domain error of `acos`), lie strictly between 0 and π, and
add up to π. -/
theorem C58_angle_sum {a b c : E n} {T : Triangle ℝ} (h : Triangle.new (arr a) (arr b) (arr c) = .ok T) :
    ∃ α β γ : ℝ, T.angle "A" = .ok α ∧ T.angle "B" = .ok β ∧ T.angle "C" = .ok γ ∧
      α + β + γ = Real.pi ∧ (0 < α ∧ α < Real.pi) ∧ (0 < β ∧ β < Real.pi) ∧ (0 < γ ∧ γ < Real.pi) := by
  obtain ⟨-, -, -, -, ⟨h1, h2, h3⟩, -⟩ := C57_names h
  obtain ⟨hn, rfl, hcol, hab, hbc, hac⟩ := Triangle.facts h
  have key : ∀ x y z : E n, ¬ Collinear ℝ {x, y, z} → 0 < ∠ x y z ∧ ∠ x y z < Real.pi := by
    intro x y z hxyz
    rw [collinear_iff_eq_or_eq_or_angle_eq_zero_or_angle_eq_pi] at hxyz
    push Not at hxyz
    exact ⟨lt_of_le_of_ne (angle_nonneg _ _ _) (Ne.symm hxyz.2.2.1),
      lt_of_le_of_ne (angle_le_pi _ _ _) hxyz.2.2.2⟩
  refine ⟨_, _, _, h1, h2, h3, ?_, key _ _ _ ?_, key _ _ _ hcol, key _ _ _ ?_⟩
  · have := angle_add_angle_add_angle_eq_pi (p₁ := a) (p₂ := b) c hab.symm 
    rw [angle_comm b a c, angle_comm a c b]
    linarith
  · rwa [Set.insert_comm]
  · rwa [Set.pair_comm]

/-! ## C56: normal, area, perimeter -/

omit [NumpyExt ℝ] [LawfulNumpy] in
theorem strict_triangle {a b c : E n} (h : ¬ Collinear ℝ ({a, b, c} : Set (E n))) : dist a c < dist a b + dist b c := by
  refine lt_of_le_of_ne (dist_triangle a b c) fun he => h ?_
  exact (dist_add_dist_eq_iff.mp he.symm).collinear

/-- C56: normal and area, in dimension at most 3. -/
theorem C56_area {a b c : E n} (hn3 : n ≤ 3) {T : Triangle ℝ}
    (h : Triangle.new (arr a) (arr b) (arr c) = .ok T) :
    ∃ (w : E 3) (s : ℝ), T.normal = .ok (arr w) ∧ T.area = .ok s ∧ s = 1 / 2 * ‖w‖ ∧ 0 < s ∧
      inner ℝ w (pad3 (b - a)) = (0 : ℝ) ∧ inner ℝ w (pad3 (c - a)) = (0 : ℝ) ∧
      Measurement.areaTriangle (arr a) (arr b) (arr c) = .ok s ∧
      s = Real.sqrt ((dist a b + dist b c + dist c a) / 2 * ((dist a b + dist b c + dist c a) / 2 - dist a b) *
        ((dist a b + dist b c + dist c a) / 2 - dist b c) * ((dist a b + dist b c + dist c a) / 2 - dist c a)) ∧
      (∀ (σ : Equiv.Perm (Fin 3)) (T' : Triangle ℝ), Triangle.new (arr (![a, b, c] (σ 0)))
        (arr (![a, b, c] (σ 1))) (arr (![a, b, c] (σ 2))) = .ok T' → T'.area = .ok s) := by
  obtain ⟨hn, rfl, hcol, hab, hbc, hac⟩ := Triangle.facts h
  obtain ⟨s, hs, h0, hheron, hzero, hperm, -⟩ := C66_area_triangle hn3 a b c
  have hval : ∀ x y z : E n, Triangle.area (⟨arr x, arr y, arr z⟩ : Triangle ℝ) =
      Measurement.areaTriangle (arr x) (arr y) (arr z) := by
    intro x y z
    simp [Triangle.area, Triangle.normal, Measurement.areaTriangle]
  refine ⟨crossE (pad3 (b - a)) (pad3 (c - a)), s, by simp [Triangle.normal, cross_arr hn3 hn3], ?_, ?_, ?_,
    crossE_inner_left _ _, crossE_inner_right _ _, hs, hheron, ?_⟩
  · rw [hval, hs]
  · rw [areaTriangle_arr hn3] at hs
    injection hs with hs; exact hs.symm
  · exact lt_of_le_of_ne h0 (fun e => hcol (hzero.mp e.symm))
  · intro σ T' hT'
    obtain ⟨-, rfl, -⟩ := Triangle.facts hT'
    rw [hval, hperm]

/-- C56: in dimension above 3 the normal and the area are not available. -/
theorem C56_area_dimension {a b c : E n} (hn3 : 3 < n) {T : Triangle ℝ}
    (h : Triangle.new (arr a) (arr b) (arr c) = .ok T) :
    (∃ msg, T.normal = .error (.valueError msg)) ∧ ∃ msg, T.area = .error (.valueError msg) := by
  obtain ⟨hn, rfl, -⟩ := Triangle.facts h
  constructor
  · exact ⟨_, by simp [Triangle.normal, Vec.cross, setDimension3_arr_gt _ hn3]; rfl⟩
  · exact ⟨_, by simp [Triangle.area, Triangle.normal, Vec.cross, setDimension3_arr_gt _ hn3]; rfl⟩

/-- C56: the perimeter, in every dimension. -/
theorem C56_perimeter {a b c : E n} {T : Triangle ℝ} (h : Triangle.new (arr a) (arr b) (arr c) = .ok T) :
    ∃ s : ℝ, T.perimeter = .ok s ∧ s = dist a b + dist b c + dist c a ∧
      2 * dist a b < s ∧ 2 * dist b c < s ∧ 2 * dist c a < s ∧
      (∀ (σ : Equiv.Perm (Fin 3)) (T' : Triangle ℝ), Triangle.new (arr (![a, b, c] (σ 0)))
        (arr (![a, b, c] (σ 1))) (arr (![a, b, c] (σ 2))) = .ok T' → T'.perimeter = .ok s) := by
  obtain ⟨hn, rfl, hcol, hab, hbc, hac⟩ := Triangle.facts h
  have hval : ∀ x y z : E n, x ≠ y → y ≠ z → x ≠ z → Triangle.perimeter (⟨arr x, arr y, arr z⟩ : Triangle ℝ) =
      .ok (dist x y + dist y z + dist z x) := by
    intro x y z h1 h2 h3
    simp only [Triangle.perimeter, Triangle.lengths_arr h1 h2 h3, ok_bind, pure_ok, sumL_real]
    simp; ring
  refine ⟨_, hval a b c hab hbc hac, rfl, ?_, ?_, ?_, ?_⟩
  · have := strict_triangle (a := a) (b := c) (c := b) (by rwa [Set.pair_comm])
    rw [dist_comm a c, dist_comm c b] at this; linarith
  · have := strict_triangle (a := b) (b := a) (c := c) (by rwa [Set.insert_comm])
    rw [dist_comm b a, dist_comm a c] at this; linarith
  · have := strict_triangle hcol
    rw [dist_comm a c] at this; linarith
  · intro σ T' hT'
    obtain ⟨-, rfl, -, g1, g2, g3⟩ := Triangle.facts hT'
    rw [hval _ _ _ g1 g2 g3]
    have h01 : σ 0 ≠ σ 1 := σ.injective.ne (by decide)
    have h02 : σ 0 ≠ σ 2 := σ.injective.ne (by decide)
    have h12 : σ 1 ≠ σ 2 := σ.injective.ne (by decide)
    clear g1 g2 g3 hT'
    generalize σ 0 = i, σ 1 = j, σ 2 = k at *
    congr 1
    fin_cases i <;> fin_cases j <;> fin_cases k <;> simp at h01 h02 h12 <;>
      simp [dist_comm b a, dist_comm c a, dist_comm c b] <;> ring

omit [NumpyExt ℝ] [LawfulNumpy] in
theorem perm3_invariant {α : Type} (F : E n → E n → E n → α) (h1 : ∀ a b c, F b a c = F a b c)
    (h2 : ∀ a b c, F a c b = F a b c) (a b c : E n) (σ : Equiv.Perm (Fin 3)) :
    F (![a, b, c] (σ 0)) (![a, b, c] (σ 1)) (![a, b, c] (σ 2)) = F a b c := by
  have h01 : σ 0 ≠ σ 1 := σ.injective.ne (by decide)
  have h02 : σ 0 ≠ σ 2 := σ.injective.ne (by decide)
  have h12 : σ 1 ≠ σ 2 := σ.injective.ne (by decide)
  generalize σ 0 = i, σ 1 = j, σ 2 = k at *
  fin_cases i <;> fin_cases j <;> fin_cases k <;> simp at h01 h02 h12
  · rfl
  · exact h2 _ _ _
  · exact h1 _ _ _
  · exact (h2 _ _ _).trans (h1 _ _ _)
  · exact (h1 _ _ _).trans (h2 _ _ _)
  · exact (h1 _ _ _).trans ((h2 _ _ _).trans (h1 _ _ _))

/-! ## C60: `classify` -/

/-- C60: with exact comparison. -/
theorem C60_classify_exact {a b c : E n} {T : Triangle ℝ} (h : Triangle.new (arr a) (arr b) (arr c) = .ok T) :
    ∃ s : String, T.classify Tol.exact = .ok s ∧
      (s = "equilateral" ↔ dist a b = dist b c ∧ dist b c = dist c a) ∧
      (s = "isosceles" ↔ (dist a b = dist b c ∧ dist c a ≠ dist a b) ∨ (dist b c = dist c a ∧ dist a b ≠ dist b c) ∨
        (dist c a = dist a b ∧ dist b c ≠ dist c a)) ∧
      (s = "scalene" ↔ dist a b ≠ dist b c ∧ dist b c ≠ dist c a ∧ dist c a ≠ dist a b) := by
  obtain ⟨hn, rfl, -, hab, hbc, hac⟩ := Triangle.facts h
  simp only [Triangle.classify, Triangle.lengths_arr hab hbc hac, ok_bind, isclose_eq Tol.exact_nonneg, close_exact]
  generalize dist a b = z, dist b c = x, dist c a = y
  by_cases h1 : x = y <;> by_cases h2 : x = z <;> by_cases h3 : y = z <;>
    simp [h1, h2, h3, eq_comm] <;> grind

/-- C60: for every tolerance the classification does not depend on the order of the vertices; negative
tolerances raise `ValueError`. -/
theorem C60_classify_order {a b c : E n} {T : Triangle ℝ} (h : Triangle.new (arr a) (arr b) (arr c) = .ok T)
    (tol : Tol ℝ) (σ : Equiv.Perm (Fin 3)) {T' : Triangle ℝ} (hT' : Triangle.new (arr (![a, b, c] (σ 0)))
        (arr (![a, b, c] (σ 1))) (arr (![a, b, c] (σ 2))) = .ok T') :
    T'.classify tol = T.classify tol ∧
      (tol.Nonneg → ∃ s, T.classify tol = .ok s) ∧
      (¬ tol.Nonneg → ∃ msg, T.classify tol = .error (.valueError msg)) := by
  obtain ⟨hn, rfl, hcol, hab, hbc, hac⟩ := Triangle.facts h
  obtain ⟨-, rfl, -, g1, g2, g3⟩ := Triangle.facts hT'
  simp only [Triangle.classify, Triangle.lengths_arr hab hbc hac, Triangle.lengths_arr g1 g2 g3, ok_bind]
  classical
  by_cases ht : tol.Nonneg
  · simp only [isclose_eq ht, ok_bind]
    obtain ⟨f, hf, hsymm⟩ : ∃ f : ℝ → ℝ → ℕ, (∀ x y, (decide (Close tol x y)).toNat = f x y) ∧
        ∀ x y, f x y = f y x := by
      refine ⟨fun x y => (decide (Close tol x y)).toNat, fun _ _ => rfl, fun x y => ?_⟩
      show (decide (Close tol x y)).toNat = (decide (Close tol y x)).toNat
      rw [decide_eq_decide.mpr (close_comm tol x y)]
    simp only [hf]
    refine ⟨?_, fun _ => ?_, fun hc => absurd ht hc⟩
    · have := perm3_invariant (fun x y z : E n => f (dist y z) (dist z x) + f (dist y z) (dist x y) + f (dist z x) (dist x y))
        (fun x y z => by
          simp only [dist_comm y x, dist_comm z x, dist_comm z y, hsymm (dist x z) (dist y z)]; omega)
        (fun x y z => by
          simp only [dist_comm y x, dist_comm z x, dist_comm z y, hsymm (dist x z) (dist x y)]; omega) a b c σ
      rw [this]
    · generalize f (dist b c) (dist c a) + f (dist b c) (dist a b) + f (dist c a) (dist a b) = k
      by_cases h3 : k = 3
      · exact ⟨_, by rw [if_pos h3]; rfl⟩
      · by_cases h1 : k = 1
        · exact ⟨_, by rw [if_neg h3, if_pos h1]; rfl⟩
        · exact ⟨_, by rw [if_neg h3, if_neg h1]; rfl⟩
  · simp only [isclose_neg ht]
    exact ⟨trivial, fun h => absurd h ht, fun _ => ⟨_, rfl⟩⟩

/-- C60: for every accepted tolerance, `classify` counts the close pairs of sides: three is equilateral,
one is isosceles, none is scalene - and two are also called scalene. -/
theorem C60_classify_tolerance {a b c : E n} {T : Triangle ℝ} (h : Triangle.new (arr a) (arr b) (arr c) = .ok T)
    {tol : Tol ℝ} (ht : tol.Nonneg) :
    (Close tol (dist b c) (dist c a) ∧ Close tol (dist c a) (dist a b) ∧ Close tol (dist a b) (dist b c) →
      T.classify tol = .ok "equilateral") ∧
    (Close tol (dist b c) (dist c a) ∧ ¬ Close tol (dist c a) (dist a b) ∧ ¬ Close tol (dist a b) (dist b c) →
      T.classify tol = .ok "isosceles") ∧
    (¬ Close tol (dist b c) (dist c a) ∧ Close tol (dist c a) (dist a b) ∧ ¬ Close tol (dist a b) (dist b c) →
      T.classify tol = .ok "isosceles") ∧
    (¬ Close tol (dist b c) (dist c a) ∧ ¬ Close tol (dist c a) (dist a b) ∧ Close tol (dist a b) (dist b c) →
      T.classify tol = .ok "isosceles") ∧
    (¬ Close tol (dist b c) (dist c a) ∧ ¬ Close tol (dist c a) (dist a b) ∧ ¬ Close tol (dist a b) (dist b c) →
      T.classify tol = .ok "scalene") ∧
    (¬ Close tol (dist b c) (dist c a) ∧ Close tol (dist c a) (dist a b) ∧ Close tol (dist a b) (dist b c) →
      T.classify tol = .ok "scalene") := by
  obtain ⟨hn, rfl, -, hab, hbc, hac⟩ := Triangle.facts h
  simp only [Triangle.classify, Triangle.lengths_arr hab hbc hac, ok_bind, isclose_eq ht]
  rw [close_comm tol (dist a b) (dist b c)]
  generalize dist a b = z, dist b c = x, dist c a = y
  refine ⟨?_, ?_, ?_, ?_, ?_, ?_⟩ <;> rintro ⟨h1, h2, h3⟩ <;> simp [h1, h2, h3]

omit [NumpyExt ℝ] [LawfulNumpy] in
theorem dist_vec2 (x y x' y' : ℝ) : dist (vec2 x y) (vec2 x' y') = Real.sqrt ((x - x') ^ 2 + (y - y') ^ 2) := by
  simp [EuclideanSpace.dist_eq, vec2, Real.dist_eq, Fin.sum_univ_two]

omit [NumpyExt ℝ] [LawfulNumpy] in
theorem dist_vec2_of {x y x' y' r : ℝ} (hr : 0 ≤ r) (h : (x - x') ^ 2 + (y - y') ^ 2 = r ^ 2) :
    dist (vec2 x y) (vec2 x' y') = r := by
  rw [dist_vec2, h, Real.sqrt_sq hr]

/-- A triangle in the plane is constructed when its squared area is not tiny relative to its sides. -/
theorem Triangle.new_vec2 {a1 a2 b1 b2 c1 c2 : ℝ}
    (h : ((a1 - b1) ^ 2 + (a2 - b2) ^ 2 + ((b1 - c1) ^ 2 + (b2 - c2) ^ 2) + ((c1 - a1) ^ 2 + (c2 - a2) ^ 2)) ^ 2 <
      10 ^ 30 * ((b1 - a1) * (c2 - a2) - (b2 - a2) * (c1 - a1)) ^ 2) :
    Triangle.new (arr (vec2 a1 a2)) (arr (vec2 b1 b2)) (arr (vec2 c1 c2)) =
      .ok ⟨arr (vec2 a1 a2), arr (vec2 b1 b2), arr (vec2 c1 c2)⟩ := by
  apply Triangle.new_arr
  rw [areCollinear_three (by norm_num), decide_eq_false]
  rw [not_not]
  have hs : ∀ x y : ℝ, Real.sqrt (x ^ 2 + y ^ 2) ^ 2 = x ^ 2 + y ^ 2 := fun x y => Real.sq_sqrt (by positivity)
  have hH : heron16 (vec2 a1 a2) (vec2 b1 b2) (vec2 c1 c2) =
      4 * ((b1 - a1) * (c2 - a2) - (b2 - a2) * (c1 - a1)) ^ 2 := by
    simp only [heron16, dist_vec2, hs]; ring
  rw [hH]
  simp only [dist_vec2, hs]
  have he : rankEps 2 = 3 * (2 : ℝ)⁻¹ ^ 52 := by simp [rankEps]
  rw [he]
  generalize ((b1 - a1) * (c2 - a2) - (b2 - a2) * (c1 - a1)) ^ 2 = d at h ⊢
  generalize ((a1 - b1) ^ 2 + (a2 - b2) ^ 2 + ((b1 - c1) ^ 2 + (b2 - c2) ^ 2) + ((c1 - a1) ^ 2 + (c2 - a2) ^ 2)) = S at h ⊢
  have hd : 0 ≤ S ^ 2 := sq_nonneg _
  norm_num at h ⊢
  nlinarith

/-- Non-vacuity of the triangle theorems (C56-C62): the 13-14-15 triangle is constructed ... -/
theorem triangle_13_14_15 : ∃ T : Triangle ℝ,
    Triangle.new (arr (vec2 0 0)) (arr (vec2 14 0)) (arr (vec2 5 12)) = .ok T :=
  ⟨_, Triangle.new_vec2 (by norm_num)⟩

/-- ... and so is the 3-4-5 triangle, ... -/
theorem triangle_3_4_5 : ∃ T : Triangle ℝ,
    Triangle.new (arr (vec2 0 0)) (arr (vec2 3 0)) (arr (vec2 0 4)) = .ok T :=
  ⟨_, Triangle.new_vec2 (by norm_num)⟩

/-- ... and a triangle of height `1e-6`. -/
theorem triangle_thin : ∃ T : Triangle ℝ,
    Triangle.new (arr (vec2 0 0)) (arr (vec2 1 0)) (arr (vec2 (1 / 2) (1 / 1000000))) = .ok T :=
  ⟨_, Triangle.new_vec2 (by norm_num)⟩

/-- C60, defect: with relative tolerance 8 % the sides 13 and 14 are close and so are 14 and 15, yet the
triangle is called scalene. -/
theorem C60_two_close_pairs_are_scalene : ∃ T : Triangle ℝ,
    Triangle.new (arr (vec2 0 0)) (arr (vec2 14 0)) (arr (vec2 5 12)) = .ok T ∧
    (∃ x y z : ℝ, T.length "a" = .ok x ∧ T.length "b" = .ok y ∧ T.length "c" = .ok z ∧
      Close ⟨8 / 100, 0⟩ y z ∧ Close ⟨8 / 100, 0⟩ z x) ∧
    T.classify ⟨8 / 100, 0⟩ = .ok "scalene" := by
  obtain ⟨T, hT⟩ := triangle_13_14_15
  refine ⟨T, hT, ?_⟩
  obtain ⟨-, -, -, ⟨l1, l2, l3⟩, -⟩ := C57_names hT
  have d1 : dist (vec2 14 0) (vec2 5 12) = 15 := dist_vec2_of (by norm_num) (by norm_num)
  have d2 : dist (vec2 5 12) (vec2 0 0) = 13 := dist_vec2_of (by norm_num) (by norm_num)
  have d3 : dist (vec2 0 0) (vec2 14 0) = 14 := dist_vec2_of (by norm_num) (by norm_num)
  have k1 : Close ⟨8 / 100, 0⟩ 13 14 := by
    unfold Close; apply le_max_of_le_left; norm_num [abs_of_nonneg, abs_of_neg]
  have k2 : Close ⟨8 / 100, 0⟩ 14 15 := by
    unfold Close; apply le_max_of_le_left; norm_num [abs_of_nonneg, abs_of_neg]
  have k3 : ¬ Close ⟨8 / 100, 0⟩ 15 13 := by
    unfold Close; rw [not_le]; norm_num [abs_of_nonneg, abs_of_neg]
  refine ⟨⟨_, _, _, l1, l2, l3, ?_, ?_⟩, ?_⟩
  · rw [d2, d3]; exact k1
  · rw [d1, d3]; exact k2
  · refine (C60_classify_tolerance hT ⟨by norm_num, le_refl _⟩).2.2.2.2.2 ?_
    rw [d1, d2, d3]
    exact ⟨k3, k1, k2⟩

/-! ## C61: `is_right` -/

omit [NumpyExt ℝ] [LawfulNumpy] in
theorem sort3_spec (x y z : ℝ) : ∃ p q r, Triangle.sort3 x y z = (p, q, r) ∧ p ≤ q ∧ q ≤ r ∧
    ((p, q, r) = (x, y, z) ∨ (p, q, r) = (x, z, y) ∨ (p, q, r) = (y, x, z) ∨ (p, q, r) = (y, z, x) ∨
      (p, q, r) = (z, x, y) ∨ (p, q, r) = (z, y, x)) := by
  unfold Triangle.sort3
  simp only [lt_real]
  by_cases h1 : y < x
  · simp only [h1, decide_true, if_true]
    by_cases h2 : z < x
    · simp only [h2, decide_true, if_true]
      by_cases h3 : z < y
      · simp only [h3, decide_true, if_true]
        exact ⟨_, _, _, rfl, h3.le, h1.le, by simp⟩
      · simp only [h3, decide_false, if_false, Bool.false_eq_true]
        exact ⟨_, _, _, rfl, not_lt.mp h3, h2.le, by simp⟩
    · simp only [h2, decide_false, if_false, Bool.false_eq_true]
      simp only [not_lt.mpr h1.le, decide_false, if_false, Bool.false_eq_true]
      exact ⟨_, _, _, rfl, h1.le, not_lt.mp h2, by simp⟩
  · simp only [h1, decide_false, if_false, Bool.false_eq_true]
    by_cases h2 : z < y
    · simp only [h2, decide_true, if_true]
      by_cases h3 : z < x
      · simp only [h3, decide_true, if_true]
        exact ⟨_, _, _, rfl, h3.le, not_lt.mp h1, by simp⟩
      · simp only [h3, decide_false, if_false, Bool.false_eq_true]
        exact ⟨_, _, _, rfl, not_lt.mp h3, h2.le, by simp⟩
    · simp only [h2, decide_false, if_false, Bool.false_eq_true]
      simp only [h1, decide_false, if_false, Bool.false_eq_true]
      exact ⟨_, _, _, rfl, not_lt.mp h1, not_lt.mp h2, by simp⟩

omit [NumpyExt ℝ] [LawfulNumpy] in
theorem sort3_eq (x y z : ℝ) : Triangle.sort3 x y z =
    (min x (min y z), x + y + z - min x (min y z) - max x (max y z), max x (max y z)) := by
  obtain ⟨p, q, r, hs, hpq, hqr, hor⟩ := sort3_spec x y z
  rw [hs]
  rcases hor with e | e | e | e | e | e <;> simp only [Prod.mk.injEq] at e ⊢ <;> obtain ⟨rfl, rfl, rfl⟩ := e <;>
    refine ⟨?_, ?_, ?_⟩ <;> grind

omit [NumpyExt ℝ] [LawfulNumpy] in
theorem sort3_swap12 (x y z : ℝ) : Triangle.sort3 y x z = Triangle.sort3 x y z := by
  rw [sort3_eq, sort3_eq, min_left_comm, max_left_comm, add_comm y x]
omit [NumpyExt ℝ] [LawfulNumpy] in
theorem sort3_swap23 (x y z : ℝ) : Triangle.sort3 x z y = Triangle.sort3 x y z := by
  rw [sort3_eq, sort3_eq, min_comm z y, max_comm z y, add_right_comm]

omit [NumpyExt ℝ] [LawfulNumpy] in
theorem sort3_right {x y z p q r : ℝ} (p1 : 0 < z) (p2 : 0 < x) (p3 : 0 < y) (hpq : p ≤ q) (hqr : q ≤ r)
    (hor : (p, q, r) = (x, y, z) ∨ (p, q, r) = (x, z, y) ∨ (p, q, r) = (y, x, z) ∨ (p, q, r) = (y, z, x) ∨
      (p, q, r) = (z, x, y) ∨ (p, q, r) = (z, y, x)) :
    sq p + sq q = sq r ↔ x * x = z * z + y * y ∨ y * y = z * z + x * x ∨ z * z = y * y + x * x := by
  have hp : 0 < p := by
    rcases hor with e | e | e | e | e | e <;> simp only [Prod.mk.injEq] at e <;> rw [e.1] <;> assumption
  have sq' : ∀ t : ℝ, sq t = t * t := fun t => by simp [sq_real, pow_two]
  have hq : 0 < q := lt_of_lt_of_le hp hpq
  have e1 : p * p ≤ q * q := mul_self_le_mul_self hp.le hpq
  have e2 : q * q ≤ r * r := mul_self_le_mul_self hq.le hqr
  have e3 : 0 < p * p := by positivity
  simp only [sq']
  rcases hor with e | e | e | e | e | e <;> simp only [Prod.mk.injEq] at e <;> obtain ⟨rfl, rfl, rfl⟩ := e <;>
    constructor <;> (try rintro (h | h | h)) <;> (try intro h) <;> 
    first | (left; linarith) | (right; left; linarith) | (right; right; linarith) | linarith

/-- C61: `is_right` with exact comparison is "some angle is π/2"; for every tolerance it does not
depend on the order of the vertices. -/
theorem C61_is_right {a b c : E n} {T : Triangle ℝ} (h : Triangle.new (arr a) (arr b) (arr c) = .ok T) :
    T.isRight Tol.exact = .ok (decide (∠ b a c = Real.pi / 2 ∨ ∠ a b c = Real.pi / 2 ∨ ∠ a c b = Real.pi / 2)) ∧
    (∀ (tol : Tol ℝ) (σ : Equiv.Perm (Fin 3)) (T' : Triangle ℝ), Triangle.new (arr (![a, b, c] (σ 0)))
        (arr (![a, b, c] (σ 1))) (arr (![a, b, c] (σ 2))) = .ok T' → T'.isRight tol = T.isRight tol) := by
  obtain ⟨hn, rfl, -, hab, hbc, hac⟩ := Triangle.facts h
  constructor
  · have hA := dist_sq_eq_dist_sq_add_dist_sq_iff_angle_eq_pi_div_two b a c
    have hB := dist_sq_eq_dist_sq_add_dist_sq_iff_angle_eq_pi_div_two a b c
    have hC := dist_sq_eq_dist_sq_add_dist_sq_iff_angle_eq_pi_div_two a c b
    have p1 := dist_pos.mpr hab
    have p2 := dist_pos.mpr hbc
    have p3 := dist_pos.mpr hac.symm
    simp only [Triangle.isRight, Triangle.lengths_arr hab hbc hac, ok_bind]
    obtain ⟨p, q, r, hs, hpq, hqr, hor⟩ := sort3_spec (dist b c) (dist c a) (dist a b)
    rw [hs]
    simp only [isclose_eq Tol.exact_nonneg, close_exact]
    congr 1
    rw [decide_eq_decide, ← hA, ← hB, ← hC, dist_comm b a, dist_comm c b, dist_comm a c]
    exact sort3_right p1 p2 p3 hpq hqr hor
  · intro tol σ T' hT'
    obtain ⟨-, rfl, -, g1, g2, g3⟩ := Triangle.facts hT'
    simp only [Triangle.isRight, Triangle.lengths_arr hab hbc hac, Triangle.lengths_arr g1 g2 g3, ok_bind]
    have := perm3_invariant (fun x y z : E n => Triangle.sort3 (dist y z) (dist z x) (dist x y))
      (fun x y z => by
        simp only [dist_comm y x, dist_comm z x, dist_comm z y]; rw [sort3_swap12])
      (fun x y z => by
        simp only [dist_comm y x, dist_comm z x, dist_comm z y]; rw [sort3_swap23]) a b c σ
    rw [this]

/-- C61: with any accepted tolerance no right triangle is missed; with the default tolerance an accepted
triangle has sides (in some order) with `p² + q²` within relative `1e-9` of `r²`. -/
theorem C61_is_right_tolerance {a b c : E n} {T : Triangle ℝ} (h : Triangle.new (arr a) (arr b) (arr c) = .ok T)
    {tol : Tol ℝ} (ht : tol.Nonneg) :
    (∠ b a c = Real.pi / 2 ∨ ∠ a b c = Real.pi / 2 ∨ ∠ a c b = Real.pi / 2 → T.isRight tol = .ok true) ∧
    ∃ p q r : ℝ, ({p, q, r} : Multiset ℝ) = {dist a b, dist b c, dist c a} ∧ p ≤ q ∧ q ≤ r ∧
      (T.isRight tol = .ok true ↔ Close tol (p ^ 2 + q ^ 2) (r ^ 2)) ∧
      (T.isRight tol = .ok false ↔ ¬ Close tol (p ^ 2 + q ^ 2) (r ^ 2)) := by
  obtain ⟨hx, -⟩ := C61_is_right h
  obtain ⟨hn, rfl, -, hab, hbc, hac⟩ := Triangle.facts h
  simp only [Triangle.isRight, Triangle.lengths_arr hab hbc hac, ok_bind] at hx ⊢
  obtain ⟨p, q, r, hs, hpq, hqr, hor⟩ := sort3_spec (dist b c) (dist c a) (dist a b)
  rw [hs] at hx ⊢
  simp only [isclose_eq Tol.exact_nonneg, isclose_eq ht, close_exact, sq_real, add_real] at hx ⊢
  refine ⟨fun hang => ?_, p, q, r, ?_, hpq, hqr, by simp, by simp⟩
  · rw [decide_eq_true hang] at hx
    have he : p ^ 2 + q ^ 2 = r ^ 2 := by simpa using hx
    rw [he]; simp [close_refl ht (r ^ 2)]
  · rcases hor with e | e | e | e | e | e <;> simp only [Prod.mk.injEq] at e <;> obtain ⟨rfl, rfl, rfl⟩ := e <;>
      simp only [Multiset.insert_eq_cons, ← Multiset.singleton_add] <;> abel

example : ∃ T : Triangle ℝ, Triangle.new (arr (vec2 0 0)) (arr (vec2 3 0)) (arr (vec2 0 4)) = .ok T ∧
    T.isRight Tol.exact = .ok true := by
  obtain ⟨T, hT⟩ := triangle_3_4_5
  refine ⟨T, hT, ?_⟩
  rw [(C61_is_right hT).1, decide_eq_true]
  left
  rw [← dist_sq_eq_dist_sq_add_dist_sq_iff_angle_eq_pi_div_two, dist_vec2_of (r := 5) (by norm_num) (by norm_num),
    dist_vec2_of (r := 3) (by norm_num) (by norm_num), dist_vec2_of (r := 4) (by norm_num) (by norm_num)]
  norm_num

end SkSpatial
