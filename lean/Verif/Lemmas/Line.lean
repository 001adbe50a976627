import Verif.Lemmas.Points
import Verif.Lemmas.Cross
/-! # Line and plane methods computed on `arr` -/

namespace SkSpatial

variable {n : ℕ}

/-- The foot of the perpendicular from `x` on the line through `p` with direction `d`. -/
noncomputable def footE (p d x : E n) : E n := p + (inner ℝ d (x - p) / ‖d‖ ^ 2) • d

theorem footE_mem (p d x : E n) : footE p d x ∈ lineSet p d := ⟨_, rfl⟩

theorem footE_perp (p : E n) {d : E n} (hd : d ≠ 0) (x : E n) : inner ℝ (x - footE p d x) d = (0 : ℝ) := by
  have h : ‖d‖ ≠ 0 := norm_ne_zero_iff.mpr hd
  rw [footE, ← sub_sub, inner_sub_left, real_inner_smul_left, real_inner_self_eq_norm_sq,
    real_inner_comm]
  field_simp; ring

theorem footE_pyth (p : E n) {d : E n} (hd : d ≠ 0) (x : E n) (t : ℝ) :
    dist x (p + t • d) ^ 2 = dist x (footE p d x) ^ 2 + dist (footE p d x) (p + t • d) ^ 2 := by
  have h := footE_perp p hd x
  rw [dist_eq_norm, dist_eq_norm, dist_eq_norm,
    show x - (p + t • d) = (x - footE p d x) + (footE p d x - (p + t • d)) by abel, norm_add_sq_real]
  have : footE p d x - (p + t • d) = (inner ℝ d (x - p) / ‖d‖ ^ 2 - t) • d := by
    rw [footE, sub_smul]; abel
  rw [this, real_inner_smul_right, h]; ring

theorem footE_le (p : E n) {d : E n} (hd : d ≠ 0) (x y : E n) (hy : y ∈ lineSet p d) :
    dist x (footE p d x) ≤ dist x y := by
  obtain ⟨t, rfl⟩ := hy
  apply le_of_sq_le_sq _ dist_nonneg
  rw [footE_pyth p hd x t]; nlinarith [sq_nonneg (dist (footE p d x) (p + t • d))]

theorem footE_unique (p : E n) {d : E n} (hd : d ≠ 0) (x y : E n) (hy : y ∈ lineSet p d)
    (h : dist x y = dist x (footE p d x)) : y = footE p d x := by
  obtain ⟨t, rfl⟩ := hy
  have := footE_pyth p hd x t
  rw [h] at this
  have h0 : dist (footE p d x) (p + t • d) ^ 2 = 0 := by linarith
  exact (dist_eq_zero.mp (pow_eq_zero_iff two_ne_zero |>.mp h0)).symm

theorem footE_self {p d : E n} (hd : d ≠ 0) {x : E n} (hx : x ∈ lineSet p d) : footE p d x = x := by
  have := footE_le p hd x x hx
  rw [dist_self] at this
  exact (dist_eq_zero.mp (le_antisymm this dist_nonneg)).symm

theorem dist_footE_eq_zero {p d : E n} (hd : d ≠ 0) {x : E n} :
    dist x (footE p d x) = 0 ↔ x ∈ lineSet p d := by
  constructor
  · intro h; rw [dist_eq_zero.mp h]; exact footE_mem _ _ _
  · intro h; rw [footE_self hd h, dist_self]

section
variable [NeZero n] (p d x : E n)

@[simp] theorem Line.projectPoint_arr :
    Line.projectPoint ⟨arr p, arr d⟩ (arr x) = .ok (arr (footE p d x)) := by
  simp [Line.projectPoint, footE]

@[simp] theorem Line.distancePoint_arr :
    Line.distancePoint ⟨arr p, arr d⟩ (arr x) = .ok (dist x (footE p d x)) := by
  simp [Line.distancePoint, dist_comm x]

omit [NeZero n] in
@[simp] theorem Line.toPoint_arr (t : ℝ) :
    Line.toPoint ⟨arr p, arr d⟩ t = .ok (arr (p + t • d)) := by
  simp [Line.toPoint]

open Classical in
theorem Line.containsPoint_arr {tol : Tol ℝ} (h : tol.Nonneg) :
    Line.containsPoint tol ⟨arr p, arr d⟩ (arr x) = .ok (decide (Close tol (dist x (footE p d x)) 0)) := by
  simp [Line.containsPoint, containsPointFn, isclose_eq h]

open Classical in
theorem Line.containsPoint_default_arr {d : E n} (hd : d ≠ 0) :
    Line.containsPoint Tol.default ⟨arr p, arr d⟩ (arr x) = .ok (decide (x ∈ lineSet p d)) := by
  rw [Line.containsPoint_arr _ _ _ Tol.default_nonneg]
  simp only [close_default_zero, dist_footE_eq_zero hd]

end

theorem checkRows_rows {P : List (E n)} (h : P ≠ []) : checkRows (rows P) = .ok () := by
  cases P with
  | nil => exact absurd rfl h
  | cons x P => simp [rows, checkRows, List.all_eq_true]

theorem mapM_map_ok {α β γ : Type} (l : List α) (g : α → β) (f : β → Res γ) (k : α → γ)
    (h : ∀ x ∈ l, f (g x) = .ok (k x)) : (l.map g).mapM f = .ok (l.map k) := by
  induction l with
  | nil => rfl
  | cons x xs ih =>
    have hx := h x (by simp)
    have hxs := ih (fun y hy => h y (by simp [hy]))
    simp [List.mapM_cons, hx, hxs]

theorem footE_unit (p : E n) {d : E n} (hd : d ≠ 0) (x : E n) :
    (inner ℝ (x - p) (‖d‖⁻¹ • d) : ℝ) • ‖d‖⁻¹ • d + p = footE p d x := by
  have h : ‖d‖ ≠ 0 := norm_ne_zero_iff.mpr hd
  rw [footE, add_comm, real_inner_smul_right, smul_smul, real_inner_comm]
  congr 2
  field_simp

theorem Line.projectPoints_arr [NeZero n] (p : E n) {d : E n} (hd : d ≠ 0) {P : List (E n)} (hP : P ≠ []) :
    Line.projectPoints ⟨arr p, arr d⟩ (rows P) = .ok (rows (P.map (footE p d))) := by
  have h1 : (rows P).mapM (fun q => vsub q (arr p)) = .ok (P.map fun x => arr (x - p)) :=
    mapM_rows P _ (fun x => arr (x - p)) (by simp)
  have h2 : (P.map fun x => arr (x - p)).mapM (fun v => dot v (arr (‖d‖⁻¹ • d))) =
      .ok (P.map fun x => (inner ℝ (x - p) (‖d‖⁻¹ • d) : ℝ)) :=
    mapM_map_ok _ _ _ _ (by intro x _; rw [dot_arr])
  have h3 : (P.map fun x => (inner ℝ (x - p) (‖d‖⁻¹ • d) : ℝ)).mapM
      (fun c => vadd (smul c (arr (‖d‖⁻¹ • d))) (arr p)) = .ok (P.map fun x => arr (footE p d x)) := by
    apply mapM_map_ok
    intro x _
    rw [smul_arr, vadd_arr, footE_unit p hd]
  have h4 : (P.map fun x => arr (footE p d x)) = rows (P.map (footE p d)) := by simp [rows]
  simp only [Line.projectPoints, checkRows_rows hP, ok_bind, h1, unit_arr hd, h2, h3, h4]
  exact newPoints_rows (by simpa using hP)

theorem Line.distancePoints_arr [NeZero n] (p : E n) {d : E n} (hd : d ≠ 0) {P : List (E n)} (hP : P ≠ []) :
    Line.distancePoints ⟨arr p, arr d⟩ (rows P) = .ok (P.map fun x => dist x (footE p d x)) := by
  have hz : List.zip (rows P) (rows (P.map (footE p d))) = P.map fun x => (arr x, arr (footE p d x)) := by
    simp only [rows, List.map_map]
    rw [List.zip_map']; rfl
  have h1 : (List.zip (rows P) (rows (P.map (footE p d)))).mapM (fun pq => vsub pq.1 pq.2) =
      .ok (P.map fun x => arr (x - footE p d x)) := by
    rw [hz]; exact mapM_map_ok _ _ _ _ (by simp)
  simp only [Line.distancePoints, Line.projectPoints_arr p hd hP, ok_bind, h1]
  simp [Function.comp_def, dist_eq_norm]

theorem Line.sumSquares_arr [NeZero n] (p d : E n) {P : List (E n)} (hP : P ≠ []) :
    Line.sumSquares ⟨arr p, arr d⟩ (rows P) = .ok (P.map fun x => dist x (footE p d x) ^ 2).sum := by
  have h1 : (rows P).mapM (Line.distancePoint ⟨arr p, arr d⟩) = .ok (P.map fun x => dist x (footE p d x)) :=
    mapM_rows P _ _ (by simp)
  simp [Line.sumSquares, sumSquaresFn, checkRows_rows hP, h1, sumL_real, Function.comp_def]

end SkSpatial
