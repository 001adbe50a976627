import Verif.Spec.Measure
import Verif.Model.Measurement
import Verif.Lemmas.Cross
import Verif.Lemmas.Points
import Verif.Props.Line
import Mathlib.MeasureTheory.Measure.Lebesgue.EqHaar
import Mathlib.MeasureTheory.Measure.Haar.InnerProductSpace
import Mathlib.LinearAlgebra.Matrix.Determinant.Basic
import Mathlib.LinearAlgebra.AffineSpace.FiniteDimensional
/-! # C66 - C67: areas and volumes -/

namespace SkSpatial
open MeasureTheory

variable {n : ℕ}

/-! ## C66 -/

theorem areaTriangle_arr [NeZero n] (hn : n ≤ 3) (a b c : E n) :
    Measurement.areaTriangle (arr a) (arr b) (arr c) =
      .ok (1 / 2 * ‖crossE (pad3 (b - a)) (pad3 (c - a))‖) := by
  simp [Measurement.areaTriangle, cross_arr hn hn]

theorem four_area_sq (hn : n ≤ 3) (a b c : E n) :
    16 * (1 / 2 * ‖crossE (pad3 (b - a)) (pad3 (c - a))‖) ^ 2 =
      2 * (dist a b ^ 2 * dist b c ^ 2 + dist b c ^ 2 * dist c a ^ 2 + dist c a ^ 2 * dist a b ^ 2) -
        (dist a b ^ 2) ^ 2 - (dist b c ^ 2) ^ 2 - (dist c a ^ 2) ^ 2 := by
  have h := crossE_norm_sq (pad3 (b - a)) (pad3 (c - a))
  rw [norm_pad3 hn, norm_pad3 hn, inner_pad3 hn] at h
  have hbc : dist b c ^ 2 = ‖b - a‖ ^ 2 - 2 * inner ℝ (b - a) (c - a) + ‖c - a‖ ^ 2 := by
    rw [dist_eq_norm, ← norm_sub_sq_real]; congr 2; abel
  rw [hbc, dist_comm a b, dist_eq_norm, dist_eq_norm]
  linear_combination 4 * h

/-- Zero-padding as a linear map. -/
noncomputable def pad3L (n : ℕ) : E n →ₗ[ℝ] E 3 where
  toFun := pad3
  map_add' := pad3_add
  map_smul' := pad3_smul

theorem affineIndependent_pad3 (hn : n ≤ 3) {ι : Type} (v : ι → E n) :
    AffineIndependent ℝ (fun i => pad3 (v i)) ↔ AffineIndependent ℝ v := by
  have hf : Function.Injective (pad3L n).toAffineMap := pad3_injective hn
  exact ((pad3L n).toAffineMap).affineIndependent_iff hf

theorem pad3_linearIndependent_iff (hn : n ≤ 3) {u v : E n} :
    LinearIndependent ℝ ![pad3 u, pad3 v] ↔ LinearIndependent ℝ ![u, v] := by
  refine ⟨fun h => ?_, pad3_linearIndependent hn⟩
  rw [LinearIndependent.pair_iff] at h ⊢
  intro s t hst
  apply h
  rw [← pad3_smul, ← pad3_smul, ← pad3_add, hst]
  ext i; simp [padTo]

theorem collinear_iff_dependent (a b c : E n) :
    Collinear ℝ {a, b, c} ↔ ¬ LinearIndependent ℝ ![b - a, c - a] := by
  rw [← not_iff_not, not_not, ← affineIndependent_iff_not_collinear_set,
    affineIndependent_iff_linearIndependent_vsub ℝ _ (0 : Fin 3)]
  have e : (fun i : Fin 2 => (![a, b, c] ((finSuccAboveEquiv (0 : Fin 3)) i : Fin 3) -ᵥ a : E n)) =
      ![b - a, c - a] := by
    funext i; fin_cases i <;> simp [finSuccAboveEquiv_apply]
  rw [← e]
  exact (linearIndependent_equiv' (finSuccAboveEquiv (0 : Fin 3)) rfl).symm

/-- C66: `area_triangle` for points of dimension at most 3. -/
theorem C66_area_triangle [NeZero n] (hn : n ≤ 3) (a b c : E n) :
    ∃ s : ℝ, Measurement.areaTriangle (arr a) (arr b) (arr c) = .ok s ∧ 0 ≤ s ∧
      -- Heron's formula
      s = Real.sqrt ((dist a b + dist b c + dist c a) / 2 * ((dist a b + dist b c + dist c a) / 2 - dist a b) *
        ((dist a b + dist b c + dist c a) / 2 - dist b c) * ((dist a b + dist b c + dist c a) / 2 - dist c a)) ∧
      (s = 0 ↔ Collinear ℝ {a, b, c}) ∧
      (∀ σ : Equiv.Perm (Fin 3), Measurement.areaTriangle (arr (![a, b, c] (σ 0))) (arr (![a, b, c] (σ 1)))
        (arr (![a, b, c] (σ 2))) = .ok s) ∧
      (∀ t : E n, Measurement.areaTriangle (arr (a + t)) (arr (b + t)) (arr (c + t)) = .ok s) ∧
      (∀ k : ℝ, Measurement.areaTriangle (arr (k • a)) (arr (k • b)) (arr (k • c)) = .ok (k ^ 2 * s)) := by
  have key : ∀ a b c : E n, 1 / 2 * ‖crossE (pad3 (b - a)) (pad3 (c - a))‖ =
      Real.sqrt ((2 * (dist a b ^ 2 * dist b c ^ 2 + dist b c ^ 2 * dist c a ^ 2 + dist c a ^ 2 * dist a b ^ 2) -
        (dist a b ^ 2) ^ 2 - (dist b c ^ 2) ^ 2 - (dist c a ^ 2) ^ 2) / 16) := by
    intro a b c
    rw [← four_area_sq hn, mul_div_cancel_left₀ _ (by norm_num), Real.sqrt_sq (by positivity)]
  refine ⟨_, areaTriangle_arr hn a b c, by positivity, ?_, ?_, fun σ => ?_, fun t => ?_, fun k => ?_⟩
  · rw [key]; congr 1; ring
  · rw [collinear_iff_dependent, ← pad3_linearIndependent_iff hn, ← crossE_eq_zero_iff]
    simp
  · rw [areaTriangle_arr hn, key, key]
    have h01 : σ 0 ≠ σ 1 := σ.injective.ne (by decide)
    have h02 : σ 0 ≠ σ 2 := σ.injective.ne (by decide)
    have h12 : σ 1 ≠ σ 2 := σ.injective.ne (by decide)
    generalize σ 0 = i, σ 1 = j, σ 2 = k at *
    congr 2
    fin_cases i <;> fin_cases j <;> fin_cases k <;> simp at h01 h02 h12 <;>
      simp [dist_comm b a, dist_comm c a, dist_comm c b] <;> ring
  · rw [areaTriangle_arr hn]; simp
  · rw [areaTriangle_arr hn, ← smul_sub, ← smul_sub, pad3_smul, pad3_smul]
    have : crossE (k • pad3 (b - a)) (k • pad3 (c - a)) = k ^ 2 • crossE (pad3 (b - a)) (pad3 (c - a)) := by
      ext i; fin_cases i <;> simp [crossE, vec3] <;> ring
    rw [this, norm_smul, Real.norm_of_nonneg (sq_nonneg k)]
    congr 1; ring

/-- C66: the area is half base times height (`distance_point` of the third vertex from the line through
the other two). -/
theorem C66_area_triangle_base_height [NeZero n] (hn : n ≤ 3) (a b c : E n) {L : Line ℝ}
    (hL : Line.fromPoints (arr b) (arr c) = .ok L) :
    ∃ h : ℝ, L.distancePoint (arr a) = .ok h ∧
      Measurement.areaTriangle (arr a) (arr b) (arr c) = .ok (1 / 2 * dist b c * h) := by
  have hbc : b ≠ c := by
    rintro rfl
    obtain ⟨msg, h⟩ := (C23_from_points b b).1 rfl
    rw [h] at hL; cases hL
  have hd : c - b ≠ 0 := sub_ne_zero.mpr hbc.symm
  have : L = ⟨arr b, arr (c - b)⟩ := by
    obtain ⟨L', h1, -, -, h2⟩ := (C23_from_points b c).2 hbc
    rw [h1] at hL; cases hL
    rw [Line.new_arr _ hd] at h2; cases h2; rfl
  subst this
  refine ⟨_, Line.distancePoint_arr _ _ _, ?_⟩
  obtain ⟨s, hs, h0, -, -, hperm, -⟩ := C66_area_triangle hn b c a
  have hp := areaTriangle_arr hn b c a
  have hσ := (C66_area_triangle hn a b c)
  obtain ⟨s', hs', h0', -, -, hperm', -⟩ := hσ
  have h3 := hperm' (finRotate 3)
  simp [finRotate] at h3
  have e : Measurement.areaTriangle (arr b) (arr c) (arr a) = .ok s' := by
    have := hperm' (finRotate 3)
    have r0 : finRotate 3 0 = 1 := by decide
    have r1 : finRotate 3 1 = 2 := by decide
    have r2 : finRotate 3 2 = 0 := by decide
    rw [r0, r1, r2] at this
    simpa using this
  rw [hs']
  rw [hp] at e
  injection e with e
  congr 1
  rw [← e, mul_assoc]
  congr 1
  have h1 : ‖crossE (pad3 (c - b)) (pad3 (a - b))‖ ^ 2 = (dist b c * dist a (footE b (c - b) a)) ^ 2 := by
    rw [crossE_norm_sq, norm_pad3 hn, norm_pad3 hn, inner_pad3 hn, mul_pow]
    have := footE_pyth b hd a 0
    rw [zero_smul, add_zero] at this
    have h2 : dist (footE b (c - b) a) b ^ 2 * ‖c - b‖ ^ 2 = (inner ℝ (c - b) (a - b)) ^ 2 := by
      rw [footE, dist_eq_norm, add_sub_cancel_left, norm_smul, mul_pow, Real.norm_eq_abs, sq_abs]
      have : ‖c - b‖ ≠ 0 := norm_ne_zero_iff.mpr hd
      field_simp
    rw [dist_comm b c, dist_eq_norm c b]
    rw [dist_eq_norm a b] at this
    nlinarith
  exact (pow_left_inj₀ (norm_nonneg _) (by positivity) (by norm_num)).mp h1

/-- C66: in the plane twice the area is the Lebesgue measure of the parallelogram spanned by the edges
at `a`. -/
theorem C66_area_triangle_measure (a b c : E 2) :
    ∃ s : ℝ, Measurement.areaTriangle (arr a) (arr b) (arr c) = .ok s ∧
      volume (parallelepiped ![b - a, c - a]) = ENNReal.ofReal (2 * s) := by
  refine ⟨_, areaTriangle_arr (by norm_num) a b c, ?_⟩
  rw [← (EuclideanSpace.basisFun (Fin 2) ℝ).addHaar_eq_volume, Measure.addHaar_parallelepiped]
  congr 1
  have h1 : crossE (pad3 (b - a)) (pad3 (c - a)) =
      vec3 0 0 ((b - a) 0 * (c - a) 1 - (b - a) 1 * (c - a) 0) := by
    ext i; fin_cases i <;> simp [crossE, vec3, padTo]
  have h2 : ∀ z : ℝ, ‖vec3 0 0 z‖ = |z| := by
    intro z; rw [← Real.sqrt_sq_eq_abs, ← Real.sqrt_sq (norm_nonneg _), norm_sq3]; simp [vec3]
  rw [h1, h2, Module.Basis.det_apply, Matrix.det_fin_two]
  simp [Module.Basis.toMatrix_apply]
  ring_nf

theorem tetra_det_eq (v : Fin 4 → E 3) : (tetraMatrix v).det =
    -Matrix.det (Matrix.of ![(v 1 - v 0).ofLp, (v 2 - v 0).ofLp, (v 3 - v 0).ofLp]) := by
  have h1 : Fin.succAbove (1 : Fin 4) 2 = 3 := by decide
  have h2 : Fin.succAbove (2 : Fin 4) 2 = 3 := by decide
  have h3 : Fin.succAbove (3 : Fin 4) 2 = 2 := by decide
  rw [Matrix.det_succ_row_zero, Matrix.det_fin_three]
  simp [tetraMatrix, Matrix.det_fin_three, Fin.sum_univ_succ, h1, h2, h3]
  ring

theorem volumeTetrahedron_arr [NeZero n] (hn : n ≤ 3) (a b c d : E n) :
    Measurement.volumeTetrahedron (arr a) (arr b) (arr c) (arr d) =
      .ok (1 / 6 * |(tetraMatrix ![pad3 a, pad3 b, pad3 c, pad3 d]).det|) := by
  simp only [Measurement.volumeTetrahedron, fromPoints_arr, ok_bind, cross_arr hn hn, setDimension3_arr _ hn,
    dot_arr, pure_ok]
  have : (inner ℝ (pad3 (b - a)) (crossE (pad3 (c - a)) (pad3 (d - a))) : ℝ) =
      - (tetraMatrix ![pad3 a, pad3 b, pad3 c, pad3 d]).det := by
    rw [pad3_sub, pad3_sub, pad3_sub, inner3, tetra_det_eq, Matrix.det_fin_three]
    simp [crossE, vec3]
    ring
  rw [this]
  simp

theorem tetraMatrix_row (v : Fin 4 → E 3) (σ : Equiv.Perm (Fin 4)) :
    (tetraMatrix (v ∘ σ)) = (tetraMatrix v).submatrix σ id := by
  ext i j; rfl

theorem tetra_det_zero (v : Fin 4 → E 3) : (tetraMatrix v).det = 0 ↔ ¬ AffineIndependent ℝ v := by
  rw [tetra_det_eq, neg_eq_zero, affineIndependent_iff_linearIndependent_vsub ℝ _ (0 : Fin 4),
    ← not_iff_not, not_not]
  have e : (fun i : Fin 3 => (v ((finSuccAboveEquiv (0 : Fin 4)) i : Fin 4) -ᵥ v 0 : E 3)) =
      ![v 1 - v 0, v 2 - v 0, v 3 - v 0] := by
    funext i; fin_cases i <;> simp [finSuccAboveEquiv_apply]
  have e2 : (LinearIndependent ℝ fun i : { x : Fin 4 // x ≠ 0 } => (v i -ᵥ v 0 : E 3)) ↔
      LinearIndependent ℝ ![v 1 - v 0, v 2 - v 0, v 3 - v 0] := by
    rw [← e]
    exact (linearIndependent_equiv' (finSuccAboveEquiv (0 : Fin 4)) rfl).symm
  rw [e2, ← Ne, ← isUnit_iff_ne_zero, ← Matrix.isUnit_iff_isUnit_det, ← Matrix.linearIndependent_rows_iff_isUnit]
  have e3 : (Matrix.of ![(v 1 - v 0).ofLp, (v 2 - v 0).ofLp, (v 3 - v 0).ofLp]).row =
      (WithLp.linearEquiv 2 ℝ (Fin 3 → ℝ)).toLinearMap ∘ ![v 1 - v 0, v 2 - v 0, v 3 - v 0] := by
    funext i; fin_cases i <;> rfl
  rw [e3, LinearMap.linearIndependent_iff _ (LinearEquiv.ker _)]

theorem coplanar_iff_not_affineIndependent (v : Fin 4 → E n) :
    Coplanar ℝ (Set.range v) ↔ ¬ AffineIndependent ℝ v := by
  rw [coplanar_iff_finrank_le_two, finrank_vectorSpan_le_iff_not_affineIndependent ℝ v (by simp)]

/-- C66: `volume_tetrahedron` for points of dimension at most 3. -/
theorem C66_volume_tetrahedron [NeZero n] (hn : n ≤ 3) (v : Fin 4 → E n) :
    ∃ s : ℝ, Measurement.volumeTetrahedron (arr (v 0)) (arr (v 1)) (arr (v 2)) (arr (v 3)) = .ok s ∧
      s = 1 / 6 * |(tetraMatrix fun i => pad3 (v i)).det| ∧
      (s = 0 ↔ Coplanar ℝ (Set.range v)) ∧
      (∀ σ : Equiv.Perm (Fin 4), Measurement.volumeTetrahedron (arr (v (σ 0))) (arr (v (σ 1)))
        (arr (v (σ 2))) (arr (v (σ 3))) = .ok s) ∧
      (∀ t : E n, Measurement.volumeTetrahedron (arr (v 0 + t)) (arr (v 1 + t)) (arr (v 2 + t))
        (arr (v 3 + t)) = .ok s) ∧
      (∀ k : ℝ, Measurement.volumeTetrahedron (arr (k • v 0)) (arr (k • v 1)) (arr (k • v 2))
        (arr (k • v 3)) = .ok (|k| ^ 3 * s)) := by
  have hv : ∀ w : Fin 4 → E n, ![pad3 (w 0), pad3 (w 1), pad3 (w 2), pad3 (w 3)] = fun i => pad3 (w i) := by
    intro w; funext i; fin_cases i <;> rfl
  refine ⟨1 / 6 * |(tetraMatrix fun i => pad3 (v i)).det|, ?_, rfl, ?_, fun σ => ?_, fun t => ?_, fun k => ?_⟩
  · rw [volumeTetrahedron_arr hn, hv]
  · rw [coplanar_iff_not_affineIndependent, ← affineIndependent_pad3 hn, ← tetra_det_zero]
    simp
  · have e := hv (fun i => v (σ i))
    rw [volumeTetrahedron_arr hn, e]
    have : tetraMatrix (fun i => pad3 (v (σ i))) = (tetraMatrix fun i => pad3 (v i)).submatrix σ id := by
      ext i j; rfl
    rw [this, Matrix.det_permute, abs_mul]
    have hs : |((Equiv.Perm.sign σ : ℤ) : ℝ)| = 1 := by
      rcases Int.units_eq_one_or (Equiv.Perm.sign σ) with h | h <;> simp [h]
    rw [hs, one_mul]
  · rw [volumeTetrahedron_arr hn]
    have e := hv (fun i => v i + t)
    rw [e, tetra_det_eq, tetra_det_eq]
    simp [pad3_add]
  · rw [volumeTetrahedron_arr hn]
    have e := hv (fun i => k • v i)
    rw [e, tetra_det_eq, tetra_det_eq]
    have h3 : Matrix.of ![(pad3 (k • v 1) - pad3 (k • v 0)).ofLp, (pad3 (k • v 2) - pad3 (k • v 0)).ofLp,
        (pad3 (k • v 3) - pad3 (k • v 0)).ofLp] = k • Matrix.of ![(pad3 (v 1) - pad3 (v 0)).ofLp,
        (pad3 (v 2) - pad3 (v 0)).ofLp, (pad3 (v 3) - pad3 (v 0)).ofLp] := by
      ext i j
      fin_cases i <;> simp [pad3_smul, mul_sub]
    rw [h3, Matrix.det_smul]
    simp [abs_mul, abs_pow]
    ring

/-- C66: six times the volume is the Lebesgue measure of the parallelepiped spanned by the edges at the
first vertex. -/
theorem C66_volume_tetrahedron_measure (a b c d : E 3) :
    ∃ s : ℝ, Measurement.volumeTetrahedron (arr a) (arr b) (arr c) (arr d) = .ok s ∧
      volume (parallelepiped ![b - a, c - a, d - a]) = ENNReal.ofReal (6 * s) := by
  refine ⟨_, volumeTetrahedron_arr (le_refl 3) a b c d, ?_⟩
  rw [← (EuclideanSpace.basisFun (Fin 3) ℝ).addHaar_eq_volume, Measure.addHaar_parallelepiped]
  congr 1
  rw [tetra_det_eq, Module.Basis.det_apply, Matrix.det_fin_three, Matrix.det_fin_three]
  simp [Module.Basis.toMatrix_apply]
  rw [abs_sub_comm] 
  congr 1
  ring

/-- C66: points of dimension above 3 are rejected. -/
theorem C66_dimension (h : 3 < n) (a b c d : E n) :
    (∃ msg, Measurement.areaTriangle (arr a) (arr b) (arr c) = .error (.valueError msg)) ∧
    ∃ msg, Measurement.volumeTetrahedron (arr a) (arr b) (arr c) (arr d) = .error (.valueError msg) := by
  have : NeZero n := ⟨by omega⟩
  constructor
  · exact ⟨_, by simp [Measurement.areaTriangle, Vec.cross, setDimension3_arr_gt _ h]; rfl⟩
  · exact ⟨_, by simp [Measurement.volumeTetrahedron, Vec.cross, setDimension3_arr_gt _ h]; rfl⟩

end SkSpatial
