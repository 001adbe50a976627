import Verif.Lemmas.Points
import Verif.Lemmas.Rank
import Verif.Model.Cylinder
import Verif.Lemmas.Cross
import Mathlib.LinearAlgebra.AffineSpace.FiniteDimensional
/-! # The algebra of `Cylinder.best_fit`: center and radius for a given direction -/

namespace SkSpatial

theorem vec3_0 (x y z : ℝ) : vec3 x y z 0 = x := by simp [vec3]
theorem vec3_1 (x y z : ℝ) : vec3 x y z 1 = y := by simp [vec3]
theorem vec3_2 (x y z : ℝ) : vec3 x y z 2 = z := by simp [vec3]

section scalar
variable {a b c d e f x y z : ℝ}

/-- The adjugate of a symmetric 3x3 matrix with a unit kernel vector. -/
theorem adj_of_kernel (h1 : a * x + b * y + c * z = 0) (h2 : b * x + d * y + e * z = 0)
    (h3 : c * x + e * y + f * z = 0) (hn : x * x + y * y + z * z = 1) {m : ℝ}
    (hm : m = (a * d - b * b) + (a * f - c * c) + (d * f - e * e)) :
    d * f - e * e = m * (x * x) ∧ a * f - c * c = m * (y * y) ∧ a * d - b * b = m * (z * z) ∧
    c * e - b * f = m * (x * y) ∧ b * e - c * d = m * (x * z) ∧ b * c - a * e = m * (y * z) := by
  have e1 : (d * f - e * e) * y = (c * e - b * f) * x := by linear_combination f * h2 - e * h3
  have e2 : (d * f - e * e) * z = (b * e - c * d) * x := by linear_combination d * h3 - e * h2
  have e3 : (c * e - b * f) * y = (a * f - c * c) * x := by linear_combination c * h3 - f * h1
  have e4 : (c * e - b * f) * z = (b * c - a * e) * x := by linear_combination e * h1 - b * h3
  have e4' : (b * e - c * d) * y = (b * c - a * e) * x := by linear_combination e * h1 - c * h2
  have e5 : (b * e - c * d) * z = (a * d - b * b) * x := by linear_combination b * h2 - d * h1
  have e6 : (a * f - c * c) * z = (b * c - a * e) * y := by linear_combination a * h3 - c * h1
  have e7 : (b * c - a * e) * z = (a * d - b * b) * y := by linear_combination b * h1 - a * h2
  have e8 : (a * f - c * c) * x = (c * e - b * f) * y := e3.symm
  subst hm
  refine ⟨?_, ?_, ?_, ?_, ?_, ?_⟩
  · linear_combination (-(d * f - e * e)) * hn + y * e1 + z * e2 + x * e3 + x * e5
  · linear_combination (-(a * f - c * c)) * hn - x * e3 - y * e1 + z * e6 + y * e7
  · linear_combination (-(a * d - b * b)) * hn - x * e5 - z * e2 - y * e7 - z * e6
  · linear_combination (-(c * e - b * f)) * hn - x * e1 + y * e3 + z * e4 + x * e7
  · linear_combination (-(b * e - c * d)) * hn - x * e2 + y * e4' + z * e5 - x * e6
  · linear_combination (-(b * c - a * e)) * hn - x * e4' + z * e7 - y * e2 - y * e6

/-- The numbers the code computes: `Â = S A Sᵀ`, its trace against `A`, and `A Â`. -/
theorem ahat_of_kernel (h1 : a * x + b * y + c * z = 0) (h2 : b * x + d * y + e * z = 0)
    (h3 : c * x + e * y + f * z = 0) (hn : x * x + y * y + z * z = 1) :
    d * (z * z) - 2 * e * (y * z) + f * (y * y) = (a + d + f) * (1 - x * x) - a ∧
    c * (y * z) - b * (z * z) + e * (x * z) - f * (x * y) = - (a + d + f) * (x * y) - b ∧
    b * (y * z) - d * (x * z) - c * (y * y) + e * (x * y) = - (a + d + f) * (x * z) - c ∧
    a * (z * z) - 2 * c * (x * z) + f * (x * x) = (a + d + f) * (1 - y * y) - d ∧
    b * (x * z) - a * (y * z) - e * (x * x) + c * (x * y) = - (a + d + f) * (y * z) - e ∧
    a * (y * y) - 2 * b * (x * y) + d * (x * x) = (a + d + f) * (1 - z * z) - f := by
  refine ⟨?_, ?_, ?_, ?_, ?_, ?_⟩
  · linear_combination (d + f) * hn + (x) * h1 - y * h2 - z * h3
  · linear_combination (-b) * hn + y * h1 + x * h2
  · linear_combination (-c) * hn + z * h1 + x * h3
  · linear_combination (a + f) * hn - x * h1 + y * h2 - z * h3
  · linear_combination (-e) * hn + z * h2 + y * h3
  · linear_combination (a + d) * hn - x * h1 - y * h2 + z * h3

end scalar

/-- The component of `x` perpendicular to the unit vector `w`. -/
noncomputable def perpE (w x : E 3) : E 3 := x - (inner ℝ x w : ℝ) • w

theorem perpE_inner {w : E 3} (hw : ‖w‖ = 1) (x : E 3) : inner ℝ (perpE w x) w = (0 : ℝ) := by
  rw [perpE, inner_sub_left, real_inner_smul_left, real_inner_self_eq_norm_sq, hw]; ring

theorem unit3 {w : E 3} (hw : ‖w‖ = 1) : w 0 * w 0 + w 1 * w 1 + w 2 * w 2 = 1 := by
  rw [← inner3, real_inner_self_eq_norm_sq, hw]; norm_num

theorem matVec_projection (w x : E 3) :
    matVec (Cylinder.projectionMatrix (arr w)) (arr x) = arr (perpE w x) := by
  simp only [Cylinder.projectionMatrix, arr3, identity, outer, matSub, matVec, dotv_real, List.range_succ, List.range_zero,
    List.map_cons, List.map_nil, List.nil_append, List.cons_append, List.zipWith_cons_cons, List.zipWith_nil_left,
    sumL_real, perpE, inner3]
  simp
  refine ⟨?_, ?_, ?_⟩ <;> ring

theorem samples_rows (w : E 3) (X : List (E 3)) :
    Cylinder.samples (arr w) (rows X) = rows (X.map (perpE w)) := by
  simp [Cylinder.samples, rows, matVec_projection]

/-- Entry `(i, j)` of the second-moment matrix. -/
noncomputable def mom (Y : List (E 3)) (i j : Fin 3) : ℝ := (Y.map fun y => y i * y j).sum

theorem mom_symm (Y : List (E 3)) (i j : Fin 3) : mom Y i j = mom Y j i := by
  unfold mom; congr 2; funext y; ring

theorem aMatrix_rows (Y : List (E 3)) : Cylinder.aMatrix (rows Y) =
    [[mom Y 0 0, mom Y 0 1, mom Y 0 2], [mom Y 0 1, mom Y 1 1, mom Y 1 2], [mom Y 0 2, mom Y 1 2, mom Y 2 2]] := by
  suffices h : ∀ s00 s01 s02 s10 s11 s12 s20 s21 s22 : ℝ,
      ((rows Y).map fun y => outer y y).foldl matAdd [[s00, s01, s02], [s10, s11, s12], [s20, s21, s22]] =
      [[s00 + mom Y 0 0, s01 + mom Y 0 1, s02 + mom Y 0 2], [s10 + mom Y 0 1, s11 + mom Y 1 1, s12 + mom Y 1 2],
        [s20 + mom Y 0 2, s21 + mom Y 1 2, s22 + mom Y 2 2]] by
    have := h 0 0 0 0 0 0 0 0 0
    simpa [Cylinder.aMatrix, zeros, List.replicate] using this
  induction Y with
  | nil => intros; simp [rows, mom]
  | cons y Y ih =>
    intros
    have : rows (y :: Y) = arr y :: rows Y := rfl
    rw [this, List.map_cons, List.foldl_cons]
    simp only [outer] at ih
    simp only [matAdd, outer, arr3 y, List.map_cons, List.map_nil, List.zipWith_cons_cons, List.zipWith_nil_left]
    rw [ih]
    simp [mom]
    refine ⟨⟨?_, ?_, ?_⟩, ⟨?_, ?_, ?_⟩, ?_, ?_, ?_⟩ <;> ring

/-- `Σ |y|² y`. -/
noncomputable def cub (Y : List (E 3)) : E 3 := (Y.map fun y => (inner ℝ y y : ℝ) • y).sum

theorem sumVecs_rows (Y : List (E 3)) : Cylinder.sumVecs (rows Y) = arr Y.sum := by
  suffices h : ∀ s : E 3, (rows Y).foldl (List.zipWith PyNum.add) (arr s) = arr (s + Y.sum) by
    have := h 0
    rw [zero_add] at this
    rw [← this]
    simp [Cylinder.sumVecs, arr3, List.replicate]
  induction Y with
  | nil => intro s; simp [rows]
  | cons y Y ih =>
    intro s
    have : rows (y :: Y) = arr y :: rows Y := rfl
    rw [this, List.foldl_cons]
    have e : List.zipWith PyNum.add (arr s) (arr y) = arr (s + y) := by
      have := zipWith_arr PyNum.add s y
      rw [this]; simp [arr]
    rw [e, ih, List.sum_cons, add_assoc]

theorem sumVecs_cub (Y : List (E 3)) :
    Cylinder.sumVecs ((rows Y).map fun y => smul (dotv y y) y) = arr (cub Y) := by
  have : ((rows Y).map fun y => smul (dotv y y) y) = rows (Y.map fun y => (inner ℝ y y : ℝ) • y) := by
    simp [rows, Function.comp_def]
  rw [this, sumVecs_rows, cub]

/-- The sum of the principal 2x2 minors of the second-moment matrix. -/
noncomputable def minors (Y : List (E 3)) : ℝ :=
  (mom Y 0 0 * mom Y 1 1 - mom Y 0 1 * mom Y 0 1) + (mom Y 0 0 * mom Y 2 2 - mom Y 0 2 * mom Y 0 2) +
    (mom Y 1 1 * mom Y 2 2 - mom Y 1 2 * mom Y 1 2)

theorem sum_inner_mul (Y : List (E 3)) (v k : E 3) :
    (Y.map fun y => (inner ℝ y v : ℝ) * inner ℝ y k).sum =
      k 0 * (mom Y 0 0 * v 0 + mom Y 0 1 * v 1 + mom Y 0 2 * v 2) +
      k 1 * (mom Y 0 1 * v 0 + mom Y 1 1 * v 1 + mom Y 1 2 * v 2) +
      k 2 * (mom Y 0 2 * v 0 + mom Y 1 2 * v 1 + mom Y 2 2 * v 2) := by
  induction Y with
  | nil => simp [mom]
  | cons y Y ih =>
    have h : ∀ i j, mom (y :: Y) i j = y i * y j + mom Y i j := by intro i j; simp [mom]
    rw [List.map_cons, List.sum_cons, ih]
    simp only [h, inner3]
    ring

theorem mom_kernel {Y : List (E 3)} {w : E 3} (h : ∀ y ∈ Y, inner ℝ y w = (0 : ℝ)) (k : E 3) :
    k 0 * (mom Y 0 0 * w 0 + mom Y 0 1 * w 1 + mom Y 0 2 * w 2) +
      k 1 * (mom Y 0 1 * w 0 + mom Y 1 1 * w 1 + mom Y 1 2 * w 2) +
      k 2 * (mom Y 0 2 * w 0 + mom Y 1 2 * w 1 + mom Y 2 2 * w 2) = 0 := by
  rw [← sum_inner_mul]
  apply List.sum_eq_zero
  intro t ht
  obtain ⟨y, hy, rfl⟩ := List.mem_map.mp ht
  rw [h y hy, zero_mul]

theorem mom_kernel' {Y : List (E 3)} {w : E 3} (h : ∀ y ∈ Y, inner ℝ y w = (0 : ℝ)) :
    mom Y 0 0 * w 0 + mom Y 0 1 * w 1 + mom Y 0 2 * w 2 = 0 ∧
      mom Y 0 1 * w 0 + mom Y 1 1 * w 1 + mom Y 1 2 * w 2 = 0 ∧
      mom Y 0 2 * w 0 + mom Y 1 2 * w 1 + mom Y 2 2 * w 2 = 0 := by
  have h0 := mom_kernel h (vec3 1 0 0)
  have h1 := mom_kernel h (vec3 0 1 0)
  have h2 := mom_kernel h (vec3 0 0 1)
  simp [vec3] at h0 h1 h2
  exact ⟨h0, h1, h2⟩

section scalar2
variable {a b c d e f x y z : ℝ}

theorem trace_of_kernel (h1 : a * x + b * y + c * z = 0) (h2 : b * x + d * y + e * z = 0)
    (h3 : c * x + e * y + f * z = 0) (hn : x * x + y * y + z * z = 1) :
    (d * (z * z) - 2 * e * (y * z) + f * (y * y)) * a +
    2 * (c * (y * z) - b * (z * z) + e * (x * z) - f * (x * y)) * b +
    2 * (b * (y * z) - d * (x * z) - c * (y * y) + e * (x * y)) * c +
    (a * (z * z) - 2 * c * (x * z) + f * (x * x)) * d +
    2 * (b * (x * z) - a * (y * z) - e * (x * x) + c * (x * y)) * e +
    (a * (y * y) - 2 * b * (x * y) + d * (x * x)) * f =
      2 * ((a * d - b * b) + (a * f - c * c) + (d * f - e * e)) := by
  obtain ⟨g1, g2, g3, g4, g5, g6⟩ := ahat_of_kernel h1 h2 h3 hn
  rw [g1, g2, g3, g4, g5, g6]
  linear_combination (-(a + d + f) * x) * h1 - ((a + d + f) * y) * h2 - ((a + d + f) * z) * h3

theorem center_of_kernel (h1 : a * x + b * y + c * z = 0) (h2 : b * x + d * y + e * z = 0)
    (h3 : c * x + e * y + f * z = 0) (hn : x * x + y * y + z * z = 1) {m p q r v0 v1 v2 : ℝ}
    (hm : m = (a * d - b * b) + (a * f - c * c) + (d * f - e * e)) (hm0 : m ≠ 0) (hb : p * x + q * y + r * z = 0)
    (hv0 : v0 = (((a + d + f) * (1 - x * x) - a) * p + (- (a + d + f) * (x * y) - b) * q +
      (- (a + d + f) * (x * z) - c) * r) / (2 * m))
    (hv1 : v1 = ((- (a + d + f) * (x * y) - b) * p + ((a + d + f) * (1 - y * y) - d) * q +
      (- (a + d + f) * (y * z) - e) * r) / (2 * m))
    (hv2 : v2 = ((- (a + d + f) * (x * z) - c) * p + (- (a + d + f) * (y * z) - e) * q +
      ((a + d + f) * (1 - z * z) - f) * r) / (2 * m)) :
    v0 * x + v1 * y + v2 * z = 0 ∧ 2 * (a * v0 + b * v1 + c * v2) = p ∧ 2 * (b * v0 + d * v1 + e * v2) = q ∧
      2 * (c * v0 + e * v1 + f * v2) = r := by
  obtain ⟨k1, k2, k3, k4, k5, k6⟩ := adj_of_kernel h1 h2 h3 hn hm
  have hv0' : v0 * (2 * m) = (a + d + f) * p - (a * p + b * q + c * r) := by
    rw [hv0, div_mul_cancel₀ _ (by positivity)]; linear_combination (-(a + d + f) * x) * hb
  have hv1' : v1 * (2 * m) = (a + d + f) * q - (b * p + d * q + e * r) := by
    rw [hv1, div_mul_cancel₀ _ (by positivity)]; linear_combination (-(a + d + f) * y) * hb
  have hv2' : v2 * (2 * m) = (a + d + f) * r - (c * p + e * q + f * r) := by
    rw [hv2, div_mul_cancel₀ _ (by positivity)]; linear_combination (-(a + d + f) * z) * hb
  clear hv0 hv1 hv2
  refine ⟨?_, ?_, ?_, ?_⟩
  · apply mul_right_cancel₀ hm0
    linear_combination (x / 2) * hv0' + (y / 2) * hv1' + (z / 2) * hv2' + (a + d + f) / 2 * hb - p / 2 * h1 - q / 2 * h2
      - r / 2 * h3
  · apply mul_right_cancel₀ hm0
    linear_combination a * hv0' + b * hv1' + c * hv2' + p * k2 + p * k3 - q * k4 - r * k5 - m * x * hb + p * m * hn
  · apply mul_right_cancel₀ hm0
    linear_combination b * hv0' + d * hv1' + e * hv2' + q * k1 + q * k3 - p * k4 - r * k6 - m * y * hb + q * m * hn
  · apply mul_right_cancel₀ hm0
    linear_combination c * hv0' + e * hv1' + f * hv2' + r * k1 + r * k2 - p * k5 - q * k6 - m * z * hb + r * m * hn

end scalar2

/-- The center the code computes satisfies the normal equations of the algebraic circle fit. -/
theorem fitCenter_spec {w : E 3} {X Y : List (E 3)} (hY : Y = X.map (perpE w)) (hw : ‖w‖ = 1) (hm : minors Y ≠ 0) :
    ∃ v : E 3, Cylinder.fitCenter (arr w) (rows X) = arr v ∧ inner ℝ v w = (0 : ℝ) ∧
      ∀ k : E 3, 2 * (Y.map fun y => (inner ℝ y v : ℝ) * inner ℝ y k).sum =
        (Y.map fun y => (inner ℝ y y : ℝ) * inner ℝ y k).sum := by
  have hyw : ∀ y ∈ Y, inner ℝ y w = (0 : ℝ) := by
    intro y hy; rw [hY] at hy; obtain ⟨x, -, rfl⟩ := List.mem_map.mp hy; exact perpE_inner hw x
  obtain ⟨h1, h2, h3⟩ := mom_kernel' hyw
  have hn := unit3 hw
  have hcub : ∀ k : E 3, (Y.map fun y => (inner ℝ y y : ℝ) * inner ℝ y k).sum = inner ℝ (cub Y) k := by
    intro k
    clear * -
    unfold cub
    induction Y with
    | nil => simp
    | cons y Y ih => simp only [List.map_cons, List.sum_cons, inner_add_left, ih, real_inner_smul_left]
  have hb : cub Y 0 * w 0 + cub Y 1 * w 1 + cub Y 2 * w 2 = 0 := by
    rw [← inner3, ← hcub]
    apply List.sum_eq_zero
    intro t ht
    obtain ⟨y, hy, rfl⟩ := List.mem_map.mp ht
    rw [hyw y hy, mul_zero]
  obtain ⟨v, hv⟩ := exists_arr' (n := 3) (Cylinder.fitCenter (arr w) (rows X)) (by
    simp [Cylinder.fitCenter, Cylinder.aHatMatrix, matMul, matVec, Cylinder.skewMatrix, sdiv])
  refine ⟨v, hv.symm, ?_⟩
  rw [Cylinder.fitCenter, samples_rows, ← hY, aMatrix_rows, sumVecs_cub] at hv
  simp only [arr3, Cylinder.aHatMatrix, Cylinder.skewMatrix, matMul, matVec, transposeRows, trace, rowDim, column,
    List.range_succ, List.range_zero, List.map_cons, List.map_nil, List.nil_append, List.cons_append, dotv_real,
    List.zipWith_cons_cons, List.zipWith_nil_left, sumL_real, sdiv, List.getD_cons_zero, List.getD_cons_succ,
    List.length_cons, List.length_nil, List.headD] at hv
  simp at hv
  obtain ⟨hv0, hv1, hv2⟩ := hv
  have htr := trace_of_kernel h1 h2 h3 hn
  obtain ⟨g1, g2, g3, g4, g5, g6⟩ := ahat_of_kernel h1 h2 h3 hn
  simp only [inner3 v, hcub, sum_inner_mul, inner3 (cub Y)]
  have hmdef : minors Y = _ := rfl
  have key := center_of_kernel h1 h2 h3 hn (m := minors Y) (v0 := v 0) (v1 := v 1) (v2 := v 2) rfl hm hb
    (by rw [hv0, ← g1, ← g2, ← g3, minors, ← htr]; congr 1 <;> ring)
    (by rw [hv1, ← g4, ← g2, ← g5, minors, ← htr]; congr 1 <;> ring)
    (by rw [hv2, ← g6, ← g5, ← g3, minors, ← htr]; congr 1 <;> ring)
  obtain ⟨q1, q2, q3, q4⟩ := key
  refine ⟨q1, fun k => ?_⟩
  linear_combination k 0 * q2 + k 1 * q3 + k 2 * q4

theorem coplanar_of_normal {P : List (E 3)} {g k : E 3} (hk : k ≠ 0) (h : ∀ x ∈ P, inner ℝ (x - g) k = (0 : ℝ)) :
    Coplanar ℝ {x | x ∈ P} := by
  rw [coplanar_iff_finrank_le_two]
  have hle : vectorSpan ℝ {x | x ∈ P} ≤ (Submodule.span ℝ {k})ᗮ := by
    rw [vectorSpan_def, Submodule.span_le]
    rintro _ ⟨x, hx, y, hy, rfl⟩
    rw [SetLike.mem_coe, Submodule.mem_orthogonal_singleton_iff_inner_left]
    have e : (x -ᵥ y : E 3) = (x - g) - (y - g) := by rw [vsub_eq_sub]; abel
    show inner ℝ (x -ᵥ y) k = (0 : ℝ)
    rw [e, inner_sub_left, h x hx, h y hy, sub_zero]
  have h1 := Submodule.finrank_mono hle
  have h2 := Submodule.finrank_add_finrank_orthogonal (Submodule.span ℝ {k})
  rw [finrank_span_singleton hk, finrank_euclideanSpace_fin] at h2
  omega

theorem perpE_inner_right {w k : E 3} (hk : inner ℝ k w = (0 : ℝ)) (x : E 3) :
    (inner ℝ (perpE w x) k : ℝ) = inner ℝ x k := by
  rw [perpE, inner_sub_left, real_inner_smul_left, real_inner_comm k w, hk]; ring

theorem list_sum_sq_zero {α : Type} (Y : List α) (f : α → ℝ) (h : (Y.map fun y => f y * f y).sum = 0) :
    ∀ y ∈ Y, f y = 0 := by
  induction Y with
  | nil => simp
  | cons y Y ih =>
    rw [List.map_cons, List.sum_cons] at h
    have h0 : 0 ≤ (Y.map fun y => f y * f y).sum := by
      apply List.sum_nonneg
      intro t ht
      obtain ⟨z, -, rfl⟩ := List.mem_map.mp ht
      exact mul_self_nonneg _
    have h1 := mul_self_nonneg (f y)
    intro z hz
    rcases List.mem_cons.mp hz with rfl | hz
    · exact mul_self_eq_zero.mp (by linarith)
    · exact ih (by linarith) z hz

theorem minors_ne_zero {P : List (E 3)} (hcop : ¬ Coplanar ℝ {x | x ∈ P}) {w : E 3} (hw : ‖w‖ = 1) (g : E 3)
    {Y : List (E 3)} (hY : Y = (P.map fun x => x - g).map (perpE w)) : minors Y ≠ 0 := by
  intro hm
  have hyw : ∀ y ∈ Y, inner ℝ y w = (0 : ℝ) := by
    intro y hy; rw [hY] at hy; obtain ⟨x, -, rfl⟩ := List.mem_map.mp hy; exact perpE_inner hw x
  have hmem : ∀ x ∈ P, perpE w (x - g) ∈ Y := by
    intro x hx; rw [hY]; exact List.mem_map.mpr ⟨_, List.mem_map.mpr ⟨x, hx, rfl⟩, rfl⟩
  obtain ⟨h1, h2, h3⟩ := mom_kernel' hyw
  have hn := unit3 hw
  have hzero : ∀ k : E 3, inner ℝ k w = (0 : ℝ) →
      (mom Y 0 0 * k 0 + mom Y 0 1 * k 1 + mom Y 0 2 * k 2 = 0) →
      (mom Y 0 1 * k 0 + mom Y 1 1 * k 1 + mom Y 1 2 * k 2 = 0) →
      (mom Y 0 2 * k 0 + mom Y 1 2 * k 1 + mom Y 2 2 * k 2 = 0) → k = 0 := by
    intro k hk e1 e2 e3
    by_contra hne
    apply hcop
    have hs := sum_inner_mul Y k k
    rw [e1, e2, e3] at hs
    have hy := list_sum_sq_zero Y (fun y => (inner ℝ y k : ℝ)) (by simpa using hs)
    exact coplanar_of_normal (g := g) hne (fun x hx => by rw [← perpE_inner_right hk]; exact hy _ (hmem x hx))
  obtain ⟨k1, k2, k3, k4, k5, k6⟩ := adj_of_kernel h1 h2 h3 hn (m := minors Y) rfl
  rw [hm] at k1 k2 k3 k4 k5 k6
  obtain ⟨T, hT⟩ : ∃ T, T = mom Y 0 0 + mom Y 1 1 + mom Y 2 2 := ⟨_, rfl⟩
  have r0 := hzero (vec3 (T * (1 - w 0 * w 0) - mom Y 0 0) (- T * (w 0 * w 1) - mom Y 0 1) (- T * (w 0 * w 2) - mom Y 0 2))
    (by rw [inner3]; simp only [vec3_0, vec3_1, vec3_2]; linear_combination (-(T * w 0)) * hn - h1)
    (by simp only [vec3_0, vec3_1, vec3_2]; rw [hT]; linear_combination (-(mom Y 0 0 + mom Y 1 1 + mom Y 2 2) * w 0) * h1 + k2 + k3)
    (by simp only [vec3_0, vec3_1, vec3_2]; rw [hT]; linear_combination (-(mom Y 0 0 + mom Y 1 1 + mom Y 2 2) * w 0) * h2 - k4)
    (by simp only [vec3_0, vec3_1, vec3_2]; rw [hT]; linear_combination (-(mom Y 0 0 + mom Y 1 1 + mom Y 2 2) * w 0) * h3 - k5)
  have r1 := hzero (vec3 (- T * (w 0 * w 1) - mom Y 0 1) (T * (1 - w 1 * w 1) - mom Y 1 1) (- T * (w 1 * w 2) - mom Y 1 2))
    (by rw [inner3]; simp only [vec3_0, vec3_1, vec3_2]; linear_combination (-(T * w 1)) * hn - h2)
    (by simp only [vec3_0, vec3_1, vec3_2]; rw [hT]; linear_combination (-(mom Y 0 0 + mom Y 1 1 + mom Y 2 2) * w 1) * h1 - k4)
    (by simp only [vec3_0, vec3_1, vec3_2]; rw [hT]; linear_combination (-(mom Y 0 0 + mom Y 1 1 + mom Y 2 2) * w 1) * h2 + k1 + k3)
    (by simp only [vec3_0, vec3_1, vec3_2]; rw [hT]; linear_combination (-(mom Y 0 0 + mom Y 1 1 + mom Y 2 2) * w 1) * h3 - k6)
  have r2 := hzero (vec3 (- T * (w 0 * w 2) - mom Y 0 2) (- T * (w 1 * w 2) - mom Y 1 2) (T * (1 - w 2 * w 2) - mom Y 2 2))
    (by rw [inner3]; simp only [vec3_0, vec3_1, vec3_2]; linear_combination (-(T * w 2)) * hn - h3)
    (by simp only [vec3_0, vec3_1, vec3_2]; rw [hT]; linear_combination (-(mom Y 0 0 + mom Y 1 1 + mom Y 2 2) * w 2) * h1 - k5)
    (by simp only [vec3_0, vec3_1, vec3_2]; rw [hT]; linear_combination (-(mom Y 0 0 + mom Y 1 1 + mom Y 2 2) * w 2) * h2 - k6)
    (by simp only [vec3_0, vec3_1, vec3_2]; rw [hT]; linear_combination (-(mom Y 0 0 + mom Y 1 1 + mom Y 2 2) * w 2) * h3 + k1 + k2)
  have s0 := congrFun (congrArg WithLp.ofLp r0) 0
  have s1 := congrFun (congrArg WithLp.ofLp r1) 1
  have s2 := congrFun (congrArg WithLp.ofLp r2) 2
  simp only [vec3_0, vec3_1, vec3_2, PiLp.zero_apply] at s0 s1 s2
  have hT0 : T = 0 := by linear_combination s0 + s1 + s2 + T * hn - hT
  have hy0 : ∀ i, ∀ y ∈ Y, y i = 0 := by
    have hnn : ∀ i, 0 ≤ mom Y i i := by
      intro i
      apply List.sum_nonneg
      intro t ht
      obtain ⟨z, -, rfl⟩ := List.mem_map.mp ht
      exact mul_self_nonneg _
    have := hnn 0
    have := hnn 1
    have := hnn 2
    intro i
    apply list_sum_sq_zero Y (fun y => y i)
    show mom Y i i = 0
    fin_cases i
    · show mom Y 0 0 = 0
      linarith
    · show mom Y 1 1 = 0
      linarith
    · show mom Y 2 2 = 0
      linarith
  apply hcop
  apply Collinear.coplanar
  rw [collinear_iff_exists_forall_eq_smul_vadd]
  refine ⟨g, w, fun x hx => ⟨inner ℝ (x - g) w, ?_⟩⟩
  have : perpE w (x - g) = 0 := by ext i; exact hy0 i _ (hmem x hx)
  rw [perpE, sub_eq_zero] at this
  rw [← this]; simp

end SkSpatial
