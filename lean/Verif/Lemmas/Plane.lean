import Verif.Lemmas.Line
import Verif.Model.Plane
/-! # Plane methods computed on `arr` -/

namespace SkSpatial

variable {n : ℕ}

/-- The foot of the perpendicular from `x` on the plane through `p` with normal `m`. -/
noncomputable def pfootE (p m x : E n) : E n := x + (inner ℝ m (p - x) / ‖m‖ ^ 2) • m

/-- The signed distance of `x` to the plane. -/
noncomputable def psignedE (p m x : E n) : ℝ := inner ℝ (x - p) (‖m‖⁻¹ • m)

theorem mem_planeSet {p m x : E n} : x ∈ planeSet p m ↔ inner ℝ m (x - p) = (0 : ℝ) := by
  rw [real_inner_comm]; rfl

theorem pfootE_mem (p : E n) {m : E n} (hm : m ≠ 0) (x : E n) : pfootE p m x ∈ planeSet p m := by
  have h : ‖m‖ ≠ 0 := norm_ne_zero_iff.mpr hm
  rw [mem_planeSet, pfootE, add_sub_right_comm, inner_add_right, real_inner_smul_right,
    real_inner_self_eq_norm_sq, ← neg_sub p x, inner_neg_right]
  field_simp; ring

theorem pfootE_signed (p : E n) {m : E n} (hm : m ≠ 0) (x : E n) :
    x = pfootE p m x + psignedE p m x • ‖m‖⁻¹ • m := by
  have h : ‖m‖ ≠ 0 := norm_ne_zero_iff.mpr hm
  rw [pfootE, psignedE, real_inner_smul_right, smul_smul, add_assoc, ← add_smul, real_inner_comm,
    ← neg_sub p x, inner_neg_left]
  have : inner ℝ (p - x) m / ‖m‖ ^ 2 + ‖m‖⁻¹ * -inner ℝ (p - x) m * ‖m‖⁻¹ = 0 := by
    field_simp; ring
  rw [this, zero_smul, add_zero]

theorem dist_pfootE (p : E n) {m : E n} (hm : m ≠ 0) (x : E n) :
    dist x (pfootE p m x) = |psignedE p m x| := by
  have h : ‖m‖ ≠ 0 := norm_ne_zero_iff.mpr hm
  have h1 : x - pfootE p m x = psignedE p m x • ‖m‖⁻¹ • m := by
    rw [sub_eq_iff_eq_add']; exact pfootE_signed p hm x
  rw [dist_eq_norm, h1, norm_smul, norm_smul, norm_inv, norm_norm, inv_mul_cancel₀ h, mul_one,
    Real.norm_eq_abs]

theorem pfootE_pyth (p : E n) {m : E n} (hm : m ≠ 0) (x : E n) {y : E n} (hy : y ∈ planeSet p m) :
    dist x y ^ 2 = dist x (pfootE p m x) ^ 2 + dist (pfootE p m x) y ^ 2 := by
  have h1 : x - pfootE p m x = psignedE p m x • ‖m‖⁻¹ • m := by
    rw [sub_eq_iff_eq_add']; exact pfootE_signed p hm x
  have h2 : (inner ℝ m (pfootE p m x - y) : ℝ) = 0 := by
    have := mem_planeSet.mp (pfootE_mem p hm x)
    have h3 := mem_planeSet.mp hy
    rw [show pfootE p m x - y = (pfootE p m x - p) - (y - p) by abel, inner_sub_right, this, h3, sub_zero]
  rw [dist_eq_norm, dist_eq_norm, dist_eq_norm,
    show x - y = (x - pfootE p m x) + (pfootE p m x - y) by abel, norm_add_sq_real, h1,
    real_inner_smul_left, real_inner_smul_left, h2]
  ring

theorem pfootE_le (p : E n) {m : E n} (hm : m ≠ 0) (x y : E n) (hy : y ∈ planeSet p m) :
    dist x (pfootE p m x) ≤ dist x y := by
  apply le_of_sq_le_sq _ dist_nonneg
  rw [pfootE_pyth p hm x hy]; nlinarith [sq_nonneg (dist (pfootE p m x) y)]

theorem pfootE_unique (p : E n) {m : E n} (hm : m ≠ 0) (x y : E n) (hy : y ∈ planeSet p m)
    (h : dist x y = dist x (pfootE p m x)) : y = pfootE p m x := by
  have := pfootE_pyth p hm x hy
  rw [h] at this
  have h0 : dist (pfootE p m x) y ^ 2 = 0 := by linarith
  exact (dist_eq_zero.mp (pow_eq_zero_iff two_ne_zero |>.mp h0)).symm

theorem psignedE_eq_zero {p m : E n} (hm : m ≠ 0) {x : E n} : psignedE p m x = 0 ↔ x ∈ planeSet p m := by
  have h : ‖m‖⁻¹ ≠ 0 := inv_ne_zero (norm_ne_zero_iff.mpr hm)
  rw [psignedE, real_inner_smul_right, mul_eq_zero, or_iff_right h]; rfl

theorem pfootE_self {p m : E n} {x : E n} (hx : x ∈ planeSet p m) : pfootE p m x = x := by
  rw [mem_planeSet] at hx
  rw [pfootE, ← neg_sub x p, inner_neg_right, hx]; simp

section
variable [NeZero n] (p m x : E n)

@[simp] theorem Plane.projectPoint_arr :
    Plane.projectPoint ⟨arr p, arr m⟩ (arr x) = .ok (arr (pfootE p m x)) := by
  simp [Plane.projectPoint, pfootE]

theorem Plane.distancePointSigned_arr {m : E n} (hm : m ≠ 0) :
    Plane.distancePointSigned ⟨arr p, arr m⟩ (arr x) = .ok (psignedE p m x) := by
  simp [Plane.distancePointSigned, Vec.scalarProjection, unit_arr hm, psignedE, real_inner_comm]

theorem Plane.distancePoint_arr {m : E n} (hm : m ≠ 0) :
    Plane.distancePoint ⟨arr p, arr m⟩ (arr x) = .ok (dist x (pfootE p m x)) := by
  simp [Plane.distancePoint, Plane.distancePointSigned_arr p x hm, dist_pfootE p hm]

open Classical in
theorem Plane.containsPoint_default_arr {m : E n} (hm : m ≠ 0) :
    Plane.containsPoint Tol.default ⟨arr p, arr m⟩ (arr x) = .ok (decide (x ∈ planeSet p m)) := by
  simp only [Plane.containsPoint, containsPointFn, Plane.distancePoint_arr p x hm, ok_bind,
    zero_real, isclose_default_zero, dist_pfootE p hm, abs_eq_zero, psignedE_eq_zero hm]

theorem Plane.projectVector_arr (v : E n) :
    Plane.projectVector ⟨arr p, arr m⟩ (arr v) = .ok (arr (v - (inner ℝ m v / ‖m‖ ^ 2) • m)) := by
  simp [Plane.projectVector, pfootE]
  rw [neg_div, neg_smul]; abel

end

theorem Plane.projectPoints_arr [NeZero n] (p : E n) {m : E n} (hm : m ≠ 0) {P : List (E n)} (hP : P ≠ []) :
    Plane.projectPoints ⟨arr p, arr m⟩ (rows P) = .ok (rows (P.map (pfootE p m))) := by
  have hne : ‖m‖ ≠ 0 := norm_ne_zero_iff.mpr hm
  have h1 : (rows P).mapM (fun q => vsub (arr p) q) = .ok (P.map fun x => arr (p - x)) :=
    mapM_rows P _ (fun x => arr (p - x)) (by simp)
  have h2 : (P.map fun x => arr (p - x)).mapM (fun v => dot v (arr (‖m‖⁻¹ • m))) =
      .ok (P.map fun x => (inner ℝ (p - x) (‖m‖⁻¹ • m) : ℝ)) :=
    mapM_map_ok _ _ _ _ (by intro x _; rw [dot_arr])
  have hz : List.zip (P.map fun x => (inner ℝ (p - x) (‖m‖⁻¹ • m) : ℝ)) (rows P) =
      P.map fun x => ((inner ℝ (p - x) (‖m‖⁻¹ • m) : ℝ), arr x) := by
    simp only [rows]
    rw [List.zip_map']
  have h3 : (List.zip (P.map fun x => (inner ℝ (p - x) (‖m‖⁻¹ • m) : ℝ)) (rows P)).mapM
      (fun dp => vadd (smul dp.1 (arr (‖m‖⁻¹ • m))) dp.2) = .ok (P.map fun x => arr (pfootE p m x)) := by
    rw [hz]
    apply mapM_map_ok
    intro x _
    simp only [smul_arr, vadd_arr, Except.ok.injEq, arr_inj]
    rw [pfootE, add_comm, real_inner_smul_right, smul_smul, real_inner_comm]
    congr 2
    field_simp
  have h4 : (P.map fun x => arr (pfootE p m x)) = rows (P.map (pfootE p m)) := by simp [rows]
  simp only [Plane.projectPoints, checkRows_rows hP, ok_bind, h1, unit_arr hm, h2, h3, h4]
  exact newPoints_rows (by simpa using hP)

theorem Plane.distancePointsSigned_arr [NeZero n] (p : E n) {m : E n} (hm : m ≠ 0) {P : List (E n)} (hP : P ≠ []) :
    Plane.distancePointsSigned ⟨arr p, arr m⟩ (rows P) = .ok (P.map (psignedE p m)) := by
  have h1 : (rows P).mapM (fun q => vsub q (arr p)) = .ok (P.map fun x => arr (x - p)) :=
    mapM_rows P _ (fun x => arr (x - p)) (by simp)
  have h2 : (P.map fun x => arr (x - p)).mapM (fun v => dot v (arr (‖m‖⁻¹ • m))) =
      .ok (P.map (psignedE p m)) :=
    mapM_map_ok _ _ _ _ (by intro x _; rw [dot_arr]; rfl)
  simp only [Plane.distancePointsSigned, checkRows_rows hP, ok_bind, h1, unit_arr hm, h2]

theorem Plane.sumSquares_arr [NeZero n] (p : E n) {m : E n} (hm : m ≠ 0) {P : List (E n)} (hP : P ≠ []) :
    Plane.sumSquares ⟨arr p, arr m⟩ (rows P) = .ok (P.map fun x => dist x (pfootE p m x) ^ 2).sum := by
  have h1 : (rows P).mapM (Plane.distancePoint ⟨arr p, arr m⟩) = .ok (P.map fun x => dist x (pfootE p m x)) :=
    mapM_rows P _ _ (by intro x _; exact Plane.distancePoint_arr p x hm)
  simp [Plane.sumSquares, sumSquaresFn, checkRows_rows hP, h1, sumL_real, Function.comp_def]

end SkSpatial
