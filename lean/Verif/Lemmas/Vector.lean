import Verif.Lemmas.Bridge
import Verif.Spec.Close
import Verif.Model.Line
import Verif.Model.Plane
import Mathlib.Geometry.Euclidean.Angle.Unoriented.Basic
/-! # The `Vector`, `Point`, `Line` and `Plane` primitives, computed on `arr x` -/

namespace SkSpatial

/-! ### isclose -/

theorem isclose_neg {tol : Tol ℝ} (h : ¬ tol.Nonneg) (a b : ℝ) :
    isclose tol a b = .error (.valueError "tolerances must be non-negative") := by
  have : tol.rel < 0 ∨ tol.abs < 0 := by
    by_contra hc; push Not at hc; exact h ⟨hc.1, hc.2⟩
  simp [isclose, this]

open Classical in
theorem isclose_eq {tol : Tol ℝ} (h : tol.Nonneg) (a b : ℝ) :
    isclose tol a b = .ok (decide (Close tol a b)) := by
  obtain ⟨h1, h2⟩ := h
  have hn : ¬ (tol.rel < 0 ∨ tol.abs < 0) := by push Not; exact ⟨h1, h2⟩
  simp only [isclose, toFloat_real, lt_real, zero_real, eq_real, isFinite_real, sub_real, mul_real, abs_real, le_real]
  have hc : Close tol a b ↔ (|b - a| ≤ |tol.rel * b| ∨ |b - a| ≤ |tol.rel * a| ∨ |b - a| ≤ tol.abs) := by
    unfold Close
    rw [abs_sub_comm a b, mul_max_of_nonneg _ _ h1, abs_mul, abs_mul, abs_of_nonneg h1]
    simp only [le_max_iff]
    tauto
  by_cases hab : a = b
  · subst hab
    have : Close tol a a := by
      rw [hc]; right; right; simpa using h2
    simp [not_lt.mpr h1, not_lt.mpr h2, this]
  · simp [not_lt.mpr h1, not_lt.mpr h2, hab, hc, Bool.or_assoc]

theorem Tol.default_rel : (Tol.default : Tol ℝ).rel = 1 / 1000000000 := by simp [Tol.default]
theorem Tol.default_abs : (Tol.default : Tol ℝ).abs = 0 := by simp [Tol.default]

theorem Tol.default_nonneg : (Tol.default : Tol ℝ).Nonneg := by
  simp [Tol.Nonneg, Tol.default]

theorem Tol.exact_nonneg : Tol.exact.Nonneg := by simp [Tol.Nonneg, Tol.exact]

theorem close_exact (a b : ℝ) : Close Tol.exact a b ↔ a = b := by
  simp [Close, Tol.exact, sub_eq_zero]

theorem close_refl {tol : Tol ℝ} (h : tol.Nonneg) (a : ℝ) : Close tol a a := by
  simp [Close, h.2]

theorem close_comm (tol : Tol ℝ) (a b : ℝ) : Close tol a b ↔ Close tol b a := by
  simp [Close, abs_sub_comm a b, max_comm |a|]

theorem close_zero {tol : Tol ℝ} (h : tol.Nonneg) (h1 : tol.rel < 1) (a : ℝ) :
    Close tol a 0 ↔ |a| ≤ tol.abs := by
  unfold Close
  simp only [sub_zero, abs_zero, le_max_iff]
  rw [max_eq_left (abs_nonneg a)]
  constructor
  · rintro (h2 | h2)
    · have : |a| = 0 := by nlinarith [abs_nonneg a]
      rw [this]; exact h.2
    · exact h2
  · exact Or.inr

theorem close_default_zero (a : ℝ) : Close Tol.default a 0 ↔ a = 0 := by
  rw [close_zero Tol.default_nonneg (by rw [Tol.default_rel]; norm_num), Tol.default_abs]
  simp

theorem close_default_one {s : ℝ} (h0 : 0 ≤ s) (h1 : s ≤ 1) :
    Close Tol.default s 1 ↔ 1 - 1 / 1000000000 ≤ s := by
  unfold Close
  rw [Tol.default_rel, Tol.default_abs, abs_of_nonneg h0, abs_of_nonpos (by linarith)]
  simp only [abs_one]
  rw [max_eq_right h1, max_eq_left (by norm_num)]
  constructor <;> intro h <;> linarith

theorem isclose_default_zero (a : ℝ) : isclose Tol.default a 0 = .ok (decide (a = 0)) := by
  rw [isclose_eq Tol.default_nonneg]
  simp [close_default_zero]

/-! ### Vector -/
section
variable {n : ℕ}

@[simp] theorem fromPoints_arr [NeZero n] (a b : E n) :
    Vec.fromPoints (arr a) (arr b) = .ok (arr (b - a)) := by
  simp [Vec.fromPoints]

@[simp] theorem norm_arr (x : E n) : Vec.norm (arr x) = ‖x‖ := by simp [Vec.norm]

theorem unit_arr {x : E n} (h : x ≠ 0) : Vec.unit (arr x) = .ok (arr (‖x‖⁻¹ • x)) := by
  simp [Vec.unit, h]

theorem unit_arr_zero : Vec.unit (arr (0 : E n)) =
    .error (.valueError "The magnitude must not be zero.") := by
  simp [Vec.unit]

open Classical in
theorem isZero_arr {tol : Tol ℝ} (h : tol.Nonneg) (x : E n) :
    Vec.isZero tol (arr x) = .ok (decide (Close tol (‖x‖ ^ 2) 0)) := by
  simp [Vec.isZero, isclose_eq h]

open Classical in
@[simp] theorem isZero_default_arr (x : E n) :
    Vec.isZero Tol.default (arr x) = .ok (decide (x = 0)) := by
  rw [isZero_arr Tol.default_nonneg]
  simp [close_default_zero]

theorem cross_arr [NeZero n] {m : ℕ} [NeZero m] (hn : n ≤ 3) (hm : m ≤ 3) (x : E n) (y : E m) :
    Vec.cross (arr x) (arr y) = .ok (arr (crossE (pad3 x) (pad3 y))) := by
  simp [Vec.cross, setDimension3_arr _ hn, setDimension3_arr _ hm]

@[simp] theorem cross_arr3 (x y : E 3) : Vec.cross (arr x) (arr y) = .ok (arr (crossE x y)) := by
  have := cross_arr (le_refl 3) (le_refl 3) x y
  simpa using this

theorem cosE_eq_cos (x y : E n) : cosE x y = Real.cos (InnerProductGeometry.angle x y) := by
  rw [InnerProductGeometry.cos_angle]; rfl

theorem abs_cosE_le_one (x y : E n) : |cosE x y| ≤ 1 := abs_real_inner_div_norm_mul_norm_le_one x y

theorem clip_eq {c : ℝ} (h : |c| ≤ 1) : clip c (PyNum.ofInt (-1)) one = c := by
  have := abs_le.mp h
  simp [clip, not_lt.mpr this.1, not_lt.mpr this.2]

theorem cosineSimilarity_arr [NeZero n] {x y : E n} (hx : x ≠ 0) (hy : y ≠ 0) :
    Vec.cosineSimilarity (arr x) (arr y) = .ok (cosE x y) := by
  have h := clip_eq (abs_cosE_le_one x y)
  simp [Vec.cosineSimilarity, hx, hy]
  simpa [cosE] using h

theorem cosineSimilarity_arr_zero [NeZero n] {x y : E n} (h : x = 0 ∨ y = 0) :
    Vec.cosineSimilarity (arr x) (arr y) =
      .error (.valueError "The vectors must have non-zero magnitudes.") := by
  rcases h with h | h <;> subst h <;> simp [Vec.cosineSimilarity]

open Classical in
theorem isPerpendicular_arr {tol : Tol ℝ} (h : tol.Nonneg) (x y : E n) :
    Vec.isPerpendicular tol (arr x) (arr y) = .ok (decide (Close tol (inner ℝ x y) 0)) := by
  simp [Vec.isPerpendicular, isclose_eq h]

open Classical in
@[simp] theorem isPerpendicular_default_arr (x y : E n) :
    Vec.isPerpendicular Tol.default (arr x) (arr y) = .ok (decide ((inner ℝ x y : ℝ) = 0)) := by
  rw [isPerpendicular_arr Tol.default_nonneg]
  simp [close_default_zero]

theorem Close.refl {tol : Tol ℝ} (h : tol.Nonneg) (a : ℝ) : Close tol a a := by
  have := h.2
  simp [Close, this]

open Classical in
theorem isParallel_arr [NeZero n] {tol : Tol ℝ} (h : tol.Nonneg) (x y : E n) :
    Vec.isParallel tol (arr x) (arr y) = .ok (decide (ParallelTol tol x y)) := by
  unfold Vec.isParallel ParallelTol
  rw [isZero_arr h]
  by_cases h1 : Close tol (‖x‖ ^ 2) 0
  · simp [h1]
  · simp only [h1, decide_false, ok_bind, new1D_arr, isZero_arr h]
    by_cases h2 : Close tol (‖y‖ ^ 2) 0
    · simp [h2]
    · have hx : x ≠ 0 := by
        rintro rfl; apply h1; simpa using Close.refl h 0
      have hy : y ≠ 0 := by
        rintro rfl; apply h2; simpa using Close.refl h 0
      simp [h2, cosineSimilarity_arr hx hy, isclose_eq h]

theorem parallelTol_default (x y : E n) : ParallelTol Tol.default x y ↔ NearParallel x y := by
  simp only [ParallelTol, NearParallel, close_default_zero, close_default_one (abs_nonneg _) (abs_cosE_le_one x y)]
  simp

open Classical in
@[simp] theorem isParallel_default_arr [NeZero n] (x y : E n) :
    Vec.isParallel Tol.default (arr x) (arr y) = .ok (decide (NearParallel x y)) := by
  rw [isParallel_arr Tol.default_nonneg]
  simp [parallelTol_default]

@[simp] theorem projectVector_arr (x y : E n) :
    Vec.projectVector (arr x) (arr y) = .ok (arr ((inner ℝ x y / ‖x‖ ^ 2) • x)) := by
  simp [Vec.projectVector]

@[simp] theorem distancePoint_arr [NeZero n] (x y : E n) :
    Pt.distancePoint (arr x) (arr y) = .ok (dist x y) := by
  simp [Pt.distancePoint, dist_comm x y, dist_eq_norm]

theorem newLinePlane_arr [NeZero n] (p : E n) {d : E n} (hd : d ≠ 0) :
    newLinePlane (arr p) (arr d) = .ok (arr p, arr d) := by
  simp [newLinePlane, hd]

theorem newLinePlane_ok {p : E n} {m : ℕ} {d : E m} {r} (h : newLinePlane (arr p) (arr d) = .ok r) :
    n ≠ 0 ∧ n = m ∧ d ≠ 0 ∧ r = (arr p, arr d) := by
  unfold newLinePlane at h
  obtain ⟨p', hp, h⟩ := bind_ok_iff.mp h
  obtain ⟨d', hd, h⟩ := bind_ok_iff.mp h
  obtain ⟨hn, rfl⟩ := new1D_ok hp
  obtain ⟨hm, rfl⟩ := new1D_ok hd
  by_cases hnm : n = m
  · subst hnm
    by_cases h0 : d = 0
    · simp [h0] at h
    · simp [h0] at h
      exact ⟨hn, rfl, h0, h.symm⟩
  · simp [hnm] at h

theorem Line.new_arr [NeZero n] (p : E n) {d : E n} (hd : d ≠ 0) :
    Line.new (arr p) (arr d) = .ok ⟨arr p, arr d⟩ := by
  simp [Line.new, newLinePlane_arr p hd]

theorem Plane.new_arr [NeZero n] (p : E n) {d : E n} (hd : d ≠ 0) :
    Plane.new (arr p) (arr d) = .ok ⟨arr p, arr d⟩ := by
  simp [Plane.new, newLinePlane_arr p hd]

theorem Line.new_ok {p d : E n} {L : Line ℝ} (h : Line.new (arr p) (arr d) = .ok L) :
    NeZero n ∧ d ≠ 0 ∧ L = ⟨arr p, arr d⟩ := by
  unfold Line.new at h
  obtain ⟨r, hr, h⟩ := bind_ok_iff.mp h
  obtain ⟨h1, -, h2, rfl⟩ := newLinePlane_ok hr
  simp at h
  exact ⟨⟨h1⟩, h2, h.symm⟩

theorem Plane.new_ok {p d : E n} {L : Plane ℝ} (h : Plane.new (arr p) (arr d) = .ok L) :
    NeZero n ∧ d ≠ 0 ∧ L = ⟨arr p, arr d⟩ := by
  unfold Plane.new at h
  obtain ⟨r, hr, h⟩ := bind_ok_iff.mp h
  obtain ⟨h1, -, h2, rfl⟩ := newLinePlane_ok hr
  simp at h
  exact ⟨⟨h1⟩, h2, h.symm⟩

end
end SkSpatial
