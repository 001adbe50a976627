import Verif.Spec.Geometry
import Mathlib.Analysis.Normed.Lp.PiLp
import Mathlib.Analysis.SpecialFunctions.Pow.Real
import Verif.Model.Norm
import Verif.Props.Points
/-!
# C82: `Vector.norm(ord=...)`

Over exact arithmetic, `norm(ord=p)` is the ℓᵖ norm (Mathlib's `PiLp`) for every real `p ≥ 1`, `ord=np.inf` the
maximum norm, `ord=-np.inf` the smallest absolute coordinate, `ord=0` the number of non-zero coordinates.
-/

namespace SkSpatial
open scoped ENNReal

/-- `x ** p` over the reals. -/
noncomputable instance : PyPow ℝ where
  pow := fun x p => x ^ p

variable {n : ℕ}

theorem map_arr (f : ℝ → ℝ) (x : E n) : (arr x).map f = List.ofFn fun i => f (x i) := by
  simp [arr, List.map_ofFn, Function.comp_def]

theorem minL_mem {l : List ℝ} (h : l ≠ []) : minL l ∈ l := by
  induction l with
  | nil => exact absurd rfl h
  | cons x xs ih =>
    cases xs with
    | nil => simp [minL]
    | cons y ys =>
      have h2 := ih (by simp)
      simp only [minL, lt_real, decide_eq_true_eq] at h2 ⊢
      split
      · exact List.mem_cons_of_mem _ h2
      · simp

theorem minL_le {l : List ℝ} {x : ℝ} (h : x ∈ l) : minL l ≤ x := by
  induction l with
  | nil => simp at h
  | cons y ys ih =>
    cases ys with
    | nil => simp at h; simp [minL, h]
    | cons z zs =>
      simp only [minL, lt_real, decide_eq_true_eq] at ih ⊢
      rcases List.mem_cons.mp h with rfl | h
      · split <;> linarith
      · have := ih h
        split <;> linarith

/-- `norm(ord=p)` for a real `p ≥ 1` is the `ℓᵖ` norm. -/
theorem C82_lp (x : E n) {p : ℝ} (hp : 1 ≤ p) :
    Vec.normOrd (.num p) (arr x) = ‖asLp (ENNReal.ofReal p) x‖ := by
  have hp0 : 0 < p := by linarith
  have ht : (ENNReal.ofReal p).toReal = p := ENNReal.toReal_ofReal hp0.le
  rw [PiLp.norm_eq_sum (by rw [ht]; exact hp0), ht]
  have hz : (p ==. (zero : ℝ)) = false := by simp [hp0.ne']
  simp only [Vec.normOrd, hz, Bool.false_eq_true, if_false, asLp, Real.norm_eq_abs]
  by_cases h1 : p = 1
  · subst h1
    simp [sumL_real, map_arr, List.sum_ofFn]
  by_cases h2 : p = 2
  · subst h2
    have : ((2 : ℝ) ==. (one : ℝ)) = false := by simp
    rw [this]
    simp only [Bool.false_eq_true, if_false]
    rw [if_pos (by simp), normv_arr, EuclideanSpace.norm_eq]
    rw [Real.sqrt_eq_rpow]
    simp
  · simp [h1, h2, sumL_real, map_arr, List.sum_ofFn, PyPow.pow]

/-- `norm()` and `norm(ord=2)` are the Euclidean norm. -/
theorem C82_euclidean (x : E n) :
    Vec.normOrd .default (arr x) = ‖x‖ ∧ Vec.normOrd (.num 2) (arr x) = ‖x‖ := by
  have : ((2 : ℝ) ==. (zero : ℝ)) = false ∧ ((2 : ℝ) ==. (one : ℝ)) = false ∧ ((2 : ℝ) ==. (two : ℝ)) = true := by
    simp
  simp [Vec.normOrd, this]

/-- `norm(ord=1)` is the sum of the absolute coordinates and `norm(ord=0)` the number of non-zero ones. -/
theorem C82_one_zero (x : E n) :
    Vec.normOrd (.num 1) (arr x) = ∑ i, |x i| ∧
      Vec.normOrd (.num 0) (arr x) = (Finset.univ.filter fun i => x i ≠ 0).card := by
  constructor
  · simp [Vec.normOrd, sumL_real, map_arr, List.sum_ofFn]
  · have : ∀ i, (if x i = 0 then (0 : ℝ) else 1) = if x i ≠ 0 then 1 else 0 := by
      intro i; by_cases h : x i = 0 <;> simp [h]
    rw [Finset.card_filter]
    simp only [Nat.cast_sum, Nat.cast_ite, Nat.cast_one, Nat.cast_zero, ← this]
    simp [Vec.normOrd, sumL_real, map_arr, List.sum_ofFn]

/-- `norm(ord=np.inf)` is the largest absolute coordinate, i.e. the maximum norm, and `norm(ord=-np.inf)` the
smallest absolute coordinate. -/
theorem C82_inf (x : E n) (hn : 0 < n) :
    (∀ i, |x i| ≤ Vec.normOrd .inf (arr x)) ∧ (∃ i, Vec.normOrd .inf (arr x) = |x i|) ∧
      Vec.normOrd .inf (arr x) = ‖asLp ∞ x‖ ∧
      (∀ i, Vec.normOrd .negInf (arr x) ≤ |x i|) ∧ (∃ i, Vec.normOrd .negInf (arr x) = |x i|) := by
  have hne : (arr x).map (PyNum.abs : ℝ → ℝ) ≠ [] := by
    intro h
    have := congrArg List.length h
    simp at this; omega
  have hmem : ∀ i, |x i| ∈ (arr x).map (PyNum.abs : ℝ → ℝ) := by
    intro i; rw [map_arr]; simp only [List.mem_ofFn]; exact ⟨i, rfl⟩
  have hex : ∀ y, y ∈ (arr x).map (PyNum.abs : ℝ → ℝ) → ∃ i, y = |x i| := by
    intro y hy; rw [map_arr] at hy; simp only [List.mem_ofFn] at hy
    obtain ⟨i, hi⟩ := hy; exact ⟨i, hi.symm⟩
  have hle : ∀ i, |x i| ≤ Vec.normOrd .inf (arr x) := fun i => le_maxL (hmem i)
  have hat : ∃ i, Vec.normOrd .inf (arr x) = |x i| := hex _ (maxL_mem hne)
  have : Nonempty (Fin n) := ⟨⟨0, hn⟩⟩
  refine ⟨hle, hat, ?_, fun i => minL_le (hmem i), hex _ (minL_mem hne)⟩
  rw [PiLp.norm_eq_ciSup]
  apply le_antisymm
  · obtain ⟨i, hi⟩ := hat
    rw [hi]
    exact le_ciSup (f := fun i => ‖asLp ∞ x i‖) (Set.finite_range _).bddAbove i
  · exact ciSup_le fun i => hle i

/-- With `ord=np.inf` or `ord=p ≥ 1` the method is a norm: non-negative, zero only at the zero vector, homogeneous,
and subadditive. -/
theorem C82_is_norm (hn : 0 < n) (ord : NormOrd ℝ) (hord : ord = .inf ∨ ∃ p, 1 ≤ p ∧ ord = .num p) (x y : E n)
    (t : ℝ) :
    0 ≤ Vec.normOrd ord (arr x) ∧ (Vec.normOrd ord (arr x) = 0 ↔ x = 0) ∧
      Vec.normOrd ord (smul t (arr x)) = |t| * Vec.normOrd ord (arr x) ∧
      ∃ s, vadd (arr x) (arr y) = .ok s ∧
        Vec.normOrd ord s ≤ Vec.normOrd ord (arr x) + Vec.normOrd ord (arr y) := by
  obtain ⟨q, hq, hnorm⟩ : ∃ q : ℝ≥0∞, 1 ≤ q ∧ ∀ z : E n, Vec.normOrd ord (arr z) = ‖asLp q z‖ := by
    rcases hord with rfl | ⟨p, hp, rfl⟩
    · exact ⟨∞, le_top, fun z => (C82_inf z hn).2.2.1⟩
    · exact ⟨ENNReal.ofReal p, by simpa using ENNReal.ofReal_le_ofReal hp, fun z => C82_lp z hp⟩
  have : Fact (1 ≤ q) := ⟨hq⟩
  rw [smul_arr, vadd_arr, hnorm, hnorm]
  refine ⟨norm_nonneg _, ?_, ?_, _, rfl, ?_⟩
  · rw [norm_eq_zero]
    constructor
    · intro h; ext i
      have := congrFun (congrArg WithLp.ofLp h) i
      simpa [asLp] using this
    · rintro rfl; ext i; simp [asLp]
  · have : asLp q (t • x) = t • asLp q x := by ext i; simp [asLp]
    rw [this, norm_smul, Real.norm_eq_abs]
  · have : asLp q (x + y) = asLp q x + asLp q y := by ext i; simp [asLp]
    rw [hnorm, hnorm, this]
    exact norm_add_le _ _

/-- The maximum norm is at most the Euclidean norm, which is at most the sum norm. -/
theorem C82_order (x : E n) (hn : 0 < n) :
    Vec.normOrd .inf (arr x) ≤ Vec.normOrd .default (arr x) ∧
      Vec.normOrd .default (arr x) ≤ Vec.normOrd (.num 1) (arr x) := by
  rw [(C82_euclidean x).1, (C82_one_zero x).1]
  constructor
  · obtain ⟨i, hi⟩ := (C82_inf x hn).2.1
    rw [hi]
    have := EuclideanSpace.norm_sq_eq x
    apply abs_le_of_sq_le_sq' _ (norm_nonneg _) |> abs_le.mpr
    rw [this]
    have h := Finset.single_le_sum (f := fun i => ‖x i‖ ^ 2) (fun i _ => sq_nonneg _) (Finset.mem_univ i)
    simpa using h
  · rw [EuclideanSpace.norm_eq]
    apply Real.sqrt_le_iff.mpr
    refine ⟨Finset.sum_nonneg fun i _ => abs_nonneg _, ?_⟩
    simp only [Real.norm_eq_abs]
    exact Finset.sum_sq_le_sq_sum_of_nonneg fun i _ => abs_nonneg _

/-- The docstring's vector `[1, 2, 3]`: the norms differ, so the statements above are not vacuous. -/
example : Vec.normOrd (.num 1) (arr (vec3 1 2 3)) = 6 ∧ Vec.normOrd (.num 0) (arr (vec3 1 2 3)) = 3 ∧
    Vec.normOrd .inf (arr (vec3 1 2 3)) = 3 ∧ Vec.normOrd .negInf (arr (vec3 1 2 3)) = 1 := by
  refine ⟨?_, ?_, ?_, ?_⟩
  · rw [(C82_one_zero _).1]; simp [vec3, Fin.sum_univ_three]; norm_num
  · rw [(C82_one_zero _).2]
    have : (Finset.univ.filter fun i => (vec3 1 2 3) i ≠ 0) = Finset.univ := by
      ext i; simp only [Finset.mem_filter_univ, Finset.mem_univ, iff_true]; fin_cases i <;> simp [vec3]
    rw [this]; simp
  · simp [Vec.normOrd, arr, vec3, Pts.maxL]; norm_num
  · simp [Vec.normOrd, arr, vec3, minL]; norm_num

end SkSpatial
