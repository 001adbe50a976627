import Verif.Inst.XReal
import Verif.Lemmas.Vector
import Verif.Props.Arrays
import Verif.Model.Sphere
import Verif.Model.Cylinder
/-! # Lists of finite `XReal` values behave like lists of reals -/

namespace SkSpatial
open XReal

@[simp] theorem xadd_fin (a b : ℝ) : (fin a) +. (fin b) = fin (a + b) := rfl
@[simp] theorem xsub_fin (a b : ℝ) : (fin a) -. (fin b) = fin (a - b) := by
  show XReal.add (fin a) (XReal.neg (fin b)) = _
  simp [XReal.add, XReal.neg, sub_eq_add_neg]
@[simp] theorem xmul_fin (a b : ℝ) : (fin a) *. (fin b) = fin (a * b) := rfl
@[simp] theorem xneg_fin (a : ℝ) : PyNum.neg (fin a) = fin (-a) := rfl
@[simp] theorem xzero : (zero : XReal) = fin 0 := by
  show fin _ = _; simp
@[simp] theorem xone : (one : XReal) = fin 1 := by
  show fin _ = _; simp
@[simp] theorem xofInt (n : ℤ) : (PyNum.ofInt n : XReal) = fin n := rfl
@[simp] theorem xlt_fin (a b : ℝ) : ((fin a) <. (fin b)) = decide (a < b) := by
  show @decide _ _ = @decide _ _; congr
@[simp] theorem xeq_fin (a b : ℝ) : ((fin a) ==. (fin b)) = decide (a = b) := by
  show @decide _ _ = @decide _ _; congr
@[simp] theorem xle_fin (a b : ℝ) : ((fin a) <=. (fin b)) = decide (a ≤ b) := by
  show (XReal.lt _ _ || XReal.eq _ _) = _
  simp only [XReal.lt, XReal.eq]
  rw [Bool.eq_iff_iff]; simp [le_iff_lt_or_eq]
@[simp] theorem xisFinite_fin (a : ℝ) : PyNum.isFinite (fin a) = true := rfl
@[simp] theorem xtoFloat (a : XReal) : PyNum.toFloat a = a := rfl
@[simp] theorem xtoFloats (l : List XReal) : toFloats l = l := List.map_id l
@[simp] theorem xabs_fin (a : ℝ) : PyNum.abs (fin a) = fin |a| := rfl
theorem xdiv_fin (a : ℝ) {b : ℝ} (h : b ≠ 0) : (fin a) /. (fin b) = fin (a / b) := by
  show XReal.div _ _ = _; simp [XReal.div, h]
theorem xsqrt_fin {a : ℝ} (h : 0 ≤ a) : PyNum.sqrt (fin a) = fin (Real.sqrt a) := by
  show XReal.sqrt _ = _; simp [XReal.sqrt, not_lt.mpr h]

theorem allFinite_map (l : List ℝ) : AllFinite (l.map fin) := by
  intro x hx; obtain ⟨r, -, rfl⟩ := List.mem_map.mp hx; exact ⟨r, rfl⟩

theorem exists_map_fin {l : List XReal} (h : AllFinite l) : ∃ r : List ℝ, l = r.map fin := by
  induction l with
  | nil => exact ⟨[], rfl⟩
  | cons x xs ih =>
    obtain ⟨r, hr⟩ := h x (by simp)
    obtain ⟨rs, hrs⟩ := ih (fun y hy => h y (by simp [hy]))
    exact ⟨r :: rs, by simp [hr, hrs]⟩

theorem xsumL (l : List ℝ) : sumL (l.map fin) = fin l.sum := by
  have : ∀ (l : List ℝ) (a : ℝ), (l.map fin).foldl PyNum.add (fin a) = fin (a + l.sum) := by
    intro l
    induction l with
    | nil => simp
    | cons x xs ih => intro a; simp [ih, add_assoc]
  show (l.map fin).foldl PyNum.add (PyNum.ofInt 0) = _
  rw [show (PyNum.ofInt 0 : XReal) = fin 0 by simp, this]; simp

theorem xdotv (a b : List ℝ) : dotv (a.map fin) (b.map fin) = fin (dotv a b) := by
  have : List.zipWith PyNum.mul (a.map fin) (b.map fin) = (List.zipWith PyNum.mul a b).map fin := by
    rw [List.zipWith_map, List.map_zipWith]; rfl
  show sumL (List.zipWith PyNum.mul (a.map fin) (b.map fin)) = _
  rw [this, xsumL, dotv_real, sumL_real]

theorem new1D_xreal_ok_iff {l m : List XReal} :
    new1D l = .ok m ↔ l ≠ [] ∧ AllFinite l ∧ m = l := by
  unfold new1D
  rw [← all_isFinite_iff]
  by_cases h1 : l = []
  · simp [h1]
  · have : l.length ≠ 0 := by simpa using h1
    rw [if_neg this]
    cases h2 : l.all PyNum.isFinite
    · simp
    · simp [h1, eq_comm]

theorem new1D_error {K : Type} [PyNum K] {l : List K} {e : Err} (h : new1D l = .error e) :
    ∃ msg, e = .valueError msg := by
  unfold new1D at h
  split at h
  · exact ⟨_, by cases h; rfl⟩
  · split at h
    · exact ⟨_, by cases h; rfl⟩
    · cases h

theorem xtol_default : (Tol.default : Tol XReal) = ⟨fin (1 / 1000000000), fin 0⟩ := by
  simp only [Tol.default, xofInt, xzero]
  rw [xdiv_fin _ (by norm_num)]
  norm_num

theorem xisclose_default_zero (a : ℝ) :
    isclose (Tol.default : Tol XReal) (fin a) (fin 0) = .ok (decide (a = 0)) := by
  rw [xtol_default]
  simp only [isclose, xtoFloat, xlt_fin, xzero, xeq_fin, xisFinite_fin, xsub_fin, xmul_fin, xabs_fin, xle_fin]
  norm_num
  by_cases h : a = 0
  · simp [h]
  · have h' : 0 < |a| := abs_pos.mpr h
    simp [h]
    nlinarith

theorem dotv_self_eq_zero (v : List ℝ) : dotv v v = 0 ↔ ∀ x ∈ v, x = 0 := by
  obtain ⟨n, hn⟩ : ∃ n, v.length = n := ⟨_, rfl⟩
  obtain ⟨x, rfl⟩ := exists_arr' v hn
  rw [dotv_arr, inner_self_eq_zero]
  constructor
  · rintro rfl y hy
    simp only [arr, List.mem_ofFn] at hy
    obtain ⟨i, rfl⟩ := hy; rfl
  · intro h; ext i
    exact h _ (by simp only [arr, List.mem_ofFn]; exact ⟨i, rfl⟩)

theorem xisZero_default (v : List ℝ) :
    Vec.isZero (Tol.default : Tol XReal) (v.map fin) = .ok (decide (∀ x ∈ v, x = 0)) := by
  simp only [Vec.isZero, dot, if_true, xdotv, ok_bind, xzero, xisclose_default_zero,
    dotv_self_eq_zero]

end SkSpatial
