import Mathlib.Analysis.InnerProductSpace.NormDet
import Verif.Spec.Symmetry
import Verif.Lemmas.Plane
import Verif.Props.Points
/-! # Similarities and the geometric notions -/

namespace SkSpatial
open scoped RealInnerProductSpace

variable {n : ℕ}

namespace Similarity
variable (φ : Similarity n)

theorem ne : φ.c ≠ 0 := φ.pos.ne'

@[simp] theorem pt_sub (x y : E n) : φ.pt x - φ.pt y = φ.vec (x - y) := by
  simp only [pt, vec, map_sub, smul_sub]; abel

theorem vec_add (u v : E n) : φ.vec (u + v) = φ.vec u + φ.vec v := by
  simp only [vec, map_add, smul_add]

theorem vec_sub (u v : E n) : φ.vec (u - v) = φ.vec u - φ.vec v := by
  simp only [vec, map_sub, smul_sub]

theorem vec_smul (a : ℝ) (v : E n) : φ.vec (a • v) = a • φ.vec v := by
  simp only [vec, map_smul, smul_comm a]

theorem vec_neg (v : E n) : φ.vec (-v) = -φ.vec v := by
  simp only [vec, map_neg, smul_neg]

@[simp] theorem vec_zero : φ.vec (0 : E n) = 0 := by simp [vec]

theorem pt_add_vec (x v : E n) : φ.pt (x + v) = φ.pt x + φ.vec v := by
  simp only [pt, vec, map_add, smul_add]; abel

@[simp] theorem vec_eq_zero {v : E n} : φ.vec v = 0 ↔ v = 0 := by
  simp [vec, φ.ne]

theorem vec_ne {v : E n} (h : v ≠ 0) : φ.vec v ≠ 0 := fun h0 => h (φ.vec_eq_zero.mp h0)

theorem pt_injective : Function.Injective φ.pt := by
  intro x y h
  have := φ.pt_sub x y
  rw [h, sub_self] at this
  exact sub_eq_zero.mp (φ.vec_eq_zero.mp this.symm)

@[simp] theorem pt_inj {x y : E n} : φ.pt x = φ.pt y ↔ x = y := φ.pt_injective.eq_iff

theorem pt_surjective (y : E n) : ∃ x, φ.pt x = y := by
  refine ⟨φ.U.symm (φ.c⁻¹ • (y - φ.t)), ?_⟩
  simp [pt, smul_smul, φ.ne]

theorem inner_vec (u v : E n) : (inner ℝ (φ.vec u) (φ.vec v) : ℝ) = φ.c ^ 2 * inner ℝ u v := by
  simp only [vec, real_inner_smul_left, real_inner_smul_right, LinearIsometryEquiv.inner_map_map]; ring

@[simp] theorem norm_vec (v : E n) : ‖φ.vec v‖ = φ.c * ‖v‖ := by
  simp only [vec, norm_smul, LinearIsometryEquiv.norm_map, Real.norm_eq_abs, abs_of_pos φ.pos]

@[simp] theorem dist_pt (x y : E n) : dist (φ.pt x) (φ.pt y) = φ.c * dist x y := by
  rw [dist_eq_norm, dist_eq_norm, pt_sub, norm_vec]

theorem quot_vec (d u v : E n) : (inner ℝ (φ.vec u) (φ.vec v) : ℝ) / ‖φ.vec d‖ ^ 2 = inner ℝ u v / ‖d‖ ^ 2 := by
  rw [inner_vec, norm_vec, mul_pow, mul_div_mul_left _ _ (pow_ne_zero 2 φ.ne)]

@[simp] theorem cosE_vec (u v : E n) : cosE (φ.vec u) (φ.vec v) = cosE u v := by
  rw [cosE, cosE, inner_vec, norm_vec, norm_vec,
    show φ.c * ‖u‖ * (φ.c * ‖v‖) = φ.c ^ 2 * (‖u‖ * ‖v‖) by ring, mul_div_mul_left _ _ (pow_ne_zero 2 φ.ne)]

@[simp] theorem nearParallel_vec (u v : E n) : NearParallel (φ.vec u) (φ.vec v) ↔ NearParallel u v := by
  simp [NearParallel]

@[simp] theorem mem_lineSet {p d x : E n} : φ.pt x ∈ lineSet (φ.pt p) (φ.vec d) ↔ x ∈ lineSet p d := by
  refine exists_congr fun a => ?_
  rw [← vec_smul, ← pt_add_vec, pt_inj]

theorem lineSet_eq (p d : E n) : lineSet (φ.pt p) (φ.vec d) = φ.pt '' lineSet p d := by
  ext y
  obtain ⟨x, rfl⟩ := φ.pt_surjective y
  simp

@[simp] theorem mem_planeSet {p m x : E n} : φ.pt x ∈ planeSet (φ.pt p) (φ.vec m) ↔ x ∈ planeSet p m := by
  simp only [planeSet, Set.mem_setOf_eq]
  rw [pt_sub, inner_vec, mul_eq_zero, or_iff_right (pow_ne_zero 2 φ.ne)]

theorem planeSet_eq (p m : E n) : planeSet (φ.pt p) (φ.vec m) = φ.pt '' planeSet p m := by
  ext y
  obtain ⟨x, rfl⟩ := φ.pt_surjective y
  simp

@[simp] theorem mem_sphere {o x : E n} {r : ℝ} :
    φ.pt x ∈ Metric.sphere (φ.pt o) (φ.c * r) ↔ x ∈ Metric.sphere o r := by
  rw [Metric.mem_sphere, Metric.mem_sphere, dist_pt, mul_right_inj' φ.ne]

theorem sphere_eq (o : E n) (r : ℝ) : Metric.sphere (φ.pt o) (φ.c * r) = φ.pt '' Metric.sphere o r := by
  ext y
  obtain ⟨x, rfl⟩ := φ.pt_surjective y
  rw [mem_sphere, φ.pt_injective.mem_set_image]

theorem footE_pt (p d x : E n) : footE (φ.pt p) (φ.vec d) (φ.pt x) = φ.pt (footE p d x) := by
  rw [footE, footE, pt_sub, quot_vec, ← vec_smul, ← pt_add_vec]

theorem pfootE_pt (p m x : E n) : pfootE (φ.pt p) (φ.vec m) (φ.pt x) = φ.pt (pfootE p m x) := by
  rw [pfootE, pfootE, pt_sub, quot_vec, ← vec_smul, ← pt_add_vec]

theorem psignedE_pt (p m x : E n) : psignedE (φ.pt p) (φ.vec m) (φ.pt x) = φ.c * psignedE p m x := by
  rw [psignedE, psignedE, pt_sub, real_inner_smul_right, real_inner_smul_right, inner_vec, norm_vec, mul_inv]
  have := φ.ne
  field_simp

end Similarity

theorem close_scale {k : ℝ} (hk : 0 < k) (tol : Tol ℝ) (a b : ℝ) :
    Close (tol.scale k) (k * a) (k * b) ↔ Close tol a b := by
  have e : max (tol.rel * max |k * a| |k * b|) (k * tol.abs) = k * max (tol.rel * max |a| |b|) tol.abs := by
    rw [abs_mul, abs_mul, abs_of_pos hk, ← mul_max_of_nonneg _ _ hk.le, mul_left_comm, ← mul_max_of_nonneg _ _ hk.le]
  simp only [Close, Tol.scale]
  rw [e, ← mul_sub, abs_mul, abs_of_pos hk, mul_le_mul_iff_right₀ hk]

theorem scale_nonneg {k : ℝ} (hk : 0 < k) {tol : Tol ℝ} (ht : tol.Nonneg) : (tol.scale k).Nonneg :=
  ⟨ht.1, mul_nonneg hk.le ht.2⟩

theorem close_scale_zero {k : ℝ} (hk : 0 < k) (tol : Tol ℝ) (a : ℝ) :
    Close (tol.scale k) (k * a) 0 ↔ Close tol a 0 := by
  have := close_scale hk tol a 0
  rwa [mul_zero] at this

/-- With `abs_tol = 0` the comparison is scale invariant. -/
theorem close_mul {k : ℝ} (hk : 0 < k) {tol : Tol ℝ} (h0 : tol.abs = 0) (a b : ℝ) :
    Close tol (k * a) (k * b) ↔ Close tol a b := by
  have := close_scale hk tol a b
  rwa [show tol.scale k = tol by cases tol; simp_all [Tol.scale]] at this

theorem close_mul_zero {k : ℝ} (hk : 0 < k) {tol : Tol ℝ} (h0 : tol.abs = 0) (a : ℝ) :
    Close tol (k * a) 0 ↔ Close tol a 0 := by
  have := close_mul hk h0 a 0
  rwa [mul_zero] at this

theorem Similarity.parallelTol_vec (φ : Similarity n) {tol : Tol ℝ} (h0 : tol.abs = 0) (u v : E n) :
    ParallelTol tol (φ.vec u) (φ.vec v) ↔ ParallelTol tol u v := by
  have hc : 0 < φ.c ^ 2 := pow_pos φ.pos 2
  simp only [ParallelTol, φ.norm_vec, φ.cosE_vec, mul_pow, close_mul_zero hc h0]

end SkSpatial

namespace SkSpatial
variable {n : ℕ}

theorem isclose_scale {k : ℝ} (hk : 0 < k) (tol : Tol ℝ) (a b : ℝ) :
    isclose (tol.scale k) (k * a) (k * b) = isclose tol a b := by
  classical
  by_cases ht : tol.Nonneg
  · rw [isclose_eq ht, isclose_eq (scale_nonneg hk ht)]
    simp only [close_scale hk]
  · have : ¬ (tol.scale k).Nonneg := fun h => ht ⟨h.1, (mul_nonneg_iff_of_pos_left hk).mp h.2⟩
    rw [isclose_neg ht, isclose_neg this]

theorem isclose_scale_zero {k : ℝ} (hk : 0 < k) (tol : Tol ℝ) (a : ℝ) :
    isclose (tol.scale k) (k * a) 0 = isclose tol a 0 := by
  have := isclose_scale hk tol a 0
  rwa [mul_zero] at this

theorem Tol.scale_of_abs {k : ℝ} {tol : Tol ℝ} (h0 : tol.abs = 0) : tol.scale k = tol := by
  cases tol; simp_all [Tol.scale]

theorem isclose_mul {k : ℝ} (hk : 0 < k) {tol : Tol ℝ} (h0 : tol.abs = 0) (a b : ℝ) :
    isclose tol (k * a) (k * b) = isclose tol a b := by
  have := isclose_scale hk tol a b
  rwa [Tol.scale_of_abs h0] at this

theorem isclose_mul_zero {k : ℝ} (hk : 0 < k) {tol : Tol ℝ} (h0 : tol.abs = 0) (a : ℝ) :
    isclose tol (k * a) 0 = isclose tol a 0 := by
  have := isclose_mul hk h0 a 0
  rwa [mul_zero] at this

variable [NeZero n] (φ : Similarity n)

theorem Similarity.isParallel_vec {tol : Tol ℝ} (h0 : tol.abs = 0) (u v : E n) :
    Vec.isParallel tol (arr (φ.vec u)) (arr (φ.vec v)) = Vec.isParallel tol (arr u) (arr v) := by
  classical
  by_cases ht : tol.Nonneg
  · rw [isParallel_arr ht, isParallel_arr ht]
    simp only [φ.parallelTol_vec h0]
  · simp only [Vec.isParallel, new1D_arr, ok_bind, Vec.isZero, dot_arr, isclose_neg ht, error_bind]

omit [NeZero n] in
theorem Similarity.isPerpendicular_vec {tol : Tol ℝ} (h0 : tol.abs = 0) (u v : E n) :
    Vec.isPerpendicular tol (arr (φ.vec u)) (arr (φ.vec v)) = Vec.isPerpendicular tol (arr u) (arr v) := by
  simp only [Vec.isPerpendicular, dot_arr, ok_bind, φ.inner_vec, zero_real]
  exact isclose_mul_zero (pow_pos φ.pos 2) h0 _

omit [NeZero n] in
/-- The determinant of a linear isometry is `1` or `-1`. -/
theorem det_isometry (U : E n ≃ₗᵢ[ℝ] E n) :
    LinearMap.det (U.toLinearEquiv : E n →ₗ[ℝ] E n) = 1 ∨ LinearMap.det (U.toLinearEquiv : E n →ₗ[ℝ] E n) = -1 := by
  have h : |LinearMap.det (U.toLinearEquiv : E n →ₗ[ℝ] E n)| = 1 := by
    have h1 := U.toLinearIsometry.normDet_eq_one
    rw [LinearMap.normDet_eq_abs_det] at h1
    exact h1
  rcases abs_eq (zero_le_one) |>.mp h with h | h
  · exact .inl h
  · exact .inr h

omit [NeZero n] in
theorem Similarity.orient_eq : φ.orient = 1 ∨ φ.orient = -1 := det_isometry φ.U

omit [NeZero n] in
theorem Similarity.orient_sq : φ.orient ^ 2 = 1 := by
  rcases φ.orient_eq with h | h <;> simp [h]

theorem Similarity.det2_vec (φ : Similarity 2) (u v : E 2) :
    φ.vec u 0 * φ.vec v 1 - φ.vec u 1 * φ.vec v 0 = φ.c ^ 2 * φ.orient * (u 0 * v 1 - u 1 * v 0) := by
  have h := (EuclideanSpace.basisFun (Fin 2) ℝ).toBasis.det_comp (φ.U.toLinearEquiv : E 2 →ₗ[ℝ] E 2) ![u, v]
  simp only [Module.Basis.det_apply, Matrix.det_fin_two, Module.Basis.toMatrix_apply] at h
  simp at h
  simp only [Similarity.vec, Similarity.orient, PiLp.smul_apply, smul_eq_mul]
  linear_combination φ.c ^ 2 * h

theorem triple_det (w u v : E 3) : (inner ℝ w (crossE u v) : ℝ) =
    (EuclideanSpace.basisFun (Fin 3) ℝ).toBasis.det ![w, u, v] := by
  simp only [Module.Basis.det_apply, Matrix.det_fin_three, Module.Basis.toMatrix_apply, inner3, crossE, vec3]
  simp
  ring

theorem crossE_isometry (U : E 3 ≃ₗᵢ[ℝ] E 3) (u v : E 3) :
    crossE (U u) (U v) = LinearMap.det (U.toLinearEquiv : E 3 →ₗ[ℝ] E 3) • U (crossE u v) := by
  refine ext_inner_left ℝ fun w => ?_
  obtain ⟨w, rfl⟩ := U.surjective w
  have h := (EuclideanSpace.basisFun (Fin 3) ℝ).toBasis.det_comp (U.toLinearEquiv : E 3 →ₗ[ℝ] E 3) ![w, u, v]
  rw [real_inner_smul_right, LinearIsometryEquiv.inner_map_map, triple_det, triple_det, ← h]
  congr 1
  ext i
  fin_cases i <;> rfl

theorem Similarity.crossE_vec (φ : Similarity 3) (u v : E 3) :
    crossE (φ.vec u) (φ.vec v) = (φ.orient * φ.c) • φ.vec (crossE u v) := by
  have h : ∀ (c : ℝ) (a b : E 3), crossE (c • a) (c • b) = (c * c) • crossE a b := by
    intro c a b
    ext i; fin_cases i <;> simp [crossE, vec3] <;> ring
  rw [Similarity.vec, Similarity.vec, h, crossE_isometry, Similarity.vec, Similarity.orient, smul_smul, smul_smul]
  congr 1; ring

end SkSpatial
