import Verif.Lemmas.Vector
import Mathlib.Data.List.Sort
import Mathlib.Order.Lattice
import Mathlib.Data.List.Lex
/-! # `Points` primitives over the reals -/

namespace SkSpatial

/-! ### Rows: lexicographic order and `np.unique` -/

theorem rowLt_iff (a b : List ℝ) : rowLt a b = true ↔ a < b := by
  induction a generalizing b with
  | nil => cases b <;> simp [rowLt]
  | cons x xs ih =>
    cases b with
    | nil => simp [rowLt]
    | cons y ys =>
      simp only [rowLt, lt_real, eq_real, Bool.or_eq_true, Bool.and_eq_true, decide_eq_true_eq, ih,
        List.cons_lt_cons_iff]

theorem rowEq_iff (a b : List ℝ) : rowEq a b = true ↔ a = b := by
  unfold rowEq
  simp only [eq_real, Bool.and_eq_true, decide_eq_true_eq, List.all_eq_true]
  constructor
  · rintro ⟨h1, h2⟩
    apply List.ext_getElem h1
    intro i hi hj
    have := h2 (a[i], b[i]) (by
      rw [List.mem_iff_getElem]
      exact ⟨i, by simp [hi, hj], by simp⟩)
    simpa using this
  · rintro rfl
    refine ⟨rfl, ?_⟩
    rintro ⟨x, y⟩ h
    obtain ⟨i, hi, he⟩ := List.mem_iff_getElem.mp h
    simp at he
    simp [← he.1, ← he.2]

theorem mem_insertRow (r s : List ℝ) (L : List (List ℝ)) : s ∈ insertRow r L ↔ s = r ∨ s ∈ L := by
  induction L with
  | nil => simp [insertRow]
  | cons t L ih =>
    unfold insertRow
    by_cases h : rowEq r t = true
    · have := (rowEq_iff r t).mp h
      subst this
      simp [h]
    · rw [if_neg h]
      by_cases h2 : rowLt r t = true
      · simp [h2]
      · simp [h2, ih]; tauto

theorem mem_npUnique (s : List ℝ) (L : List (List ℝ)) : s ∈ npUnique L ↔ s ∈ L := by
  unfold npUnique
  induction L with
  | nil => simp
  | cons r L ih => simp [mem_insertRow, ih]

theorem sorted_insertRow (r : List ℝ) (L : List (List ℝ)) (h : L.Pairwise (· < ·)) :
    (insertRow r L).Pairwise (· < ·) := by
  induction L with
  | nil => simp [insertRow]
  | cons t L ih =>
    unfold insertRow
    rw [List.pairwise_cons] at h
    by_cases h1 : rowEq r t = true
    · rw [if_pos h1]; exact List.pairwise_cons.mpr h
    · rw [if_neg h1]
      by_cases h2 : rowLt r t = true
      · rw [if_pos h2]
        rw [rowLt_iff] at h2
        refine List.pairwise_cons.mpr ⟨?_, List.pairwise_cons.mpr h⟩
        intro s hs
        rcases List.mem_cons.mp hs with rfl | hs
        · exact h2
        · exact lt_trans h2 (h.1 s hs)
      · rw [if_neg h2]
        refine List.pairwise_cons.mpr ⟨?_, ih h.2⟩
        intro s hs
        rcases (mem_insertRow r s L).mp hs with rfl | hs
        · rw [rowLt_iff] at h2
          rw [rowEq_iff] at h1
          rcases lt_trichotomy s t with h3 | h3 | h3
          · exact absurd h3 h2
          · exact absurd h3 h1
          · exact h3
        · exact h.1 s hs

theorem sorted_npUnique (L : List (List ℝ)) : (npUnique L).Pairwise (· < ·) := by
  unfold npUnique
  induction L with
  | nil => simp
  | cons r L ih => exact sorted_insertRow r _ ih

/-- Strictly increasing lists with the same members are equal. -/
theorem sorted_ext {L M : List (List ℝ)} (hL : L.Pairwise (· < ·)) (hM : M.Pairwise (· < ·))
    (h : ∀ s, s ∈ L ↔ s ∈ M) : L = M := by
  have hp : L.Perm M := by
    rw [List.perm_ext_iff_of_nodup (hL.imp fun h => ne_of_lt h) (hM.imp fun h => ne_of_lt h)]
    exact h
  exact hp.eq_of_pairwise (fun a b _ _ h1 h2 => absurd h2 (lt_asymm h1)) hL hM

variable {n : ℕ}

theorem exists_rows (L : List (List ℝ)) (h : ∀ s ∈ L, s.length = n) : ∃ Q : List (E n), rows Q = L := by
  induction L with
  | nil => exact ⟨[], rfl⟩
  | cons r L ih =>
    obtain ⟨Q, hQ⟩ := ih fun s hs => h s (by simp [hs])
    obtain ⟨x, hx⟩ := exists_arr' r (h r (by simp))
    exact ⟨x :: Q, by simp [rows, hx]; exact hQ⟩

theorem mem_rows {P : List (E n)} {s : List ℝ} : s ∈ rows P ↔ ∃ x ∈ P, arr x = s := by simp [rows]

theorem rows_injective : Function.Injective (rows (n := n)) :=
  List.map_injective_iff.mpr arr_injective

theorem arr_mem_rows {P : List (E n)} {x : E n} : arr x ∈ rows P ↔ x ∈ P := by
  rw [mem_rows]
  constructor
  · rintro ⟨y, hy, h⟩; rw [arr_inj] at h; exact h ▸ hy
  · intro h; exact ⟨x, h, rfl⟩

@[simp] theorem length_rows (P : List (E n)) : (rows P).length = P.length := by simp [rows]

theorem rows_eq_nil {P : List (E n)} : rows P = [] ↔ P = [] := by simp [rows]

theorem newPoints_rows [NeZero n] {P : List (E n)} (h : P ≠ []) : newPoints (rows P) = .ok (rows P) := by
  cases P with
  | nil => exact absurd rfl h
  | cons x P =>
    have h1 : ((rows P).all fun s => s.length = (arr x).length) = true := by
      simp [List.all_eq_true, rows]
    have h2 : ((arr x :: rows P).all fun s => s.all PyNum.isFinite) = true := by
      simp [List.all_eq_true]
    show newPoints (arr x :: rows P) = .ok (arr x :: rows P)
    unfold newPoints
    simp only
    rw [h1, h2]
    simp [NeZero.ne n]

theorem newPoints_rows_nil : newPoints (rows ([] : List (E n))) = .error (.valueError "The array must be 2D.") := rfl

/-- `np.unique` on rows of points. -/
theorem exists_unique_rows (P : List (E n)) : ∃ Q : List (E n), npUnique (rows P) = rows Q ∧ Q.Nodup ∧
    ∀ x, x ∈ Q ↔ x ∈ P := by
  obtain ⟨Q, hQ⟩ := exists_rows (n := n) (npUnique (rows P)) (by
    intro s hs
    rw [mem_npUnique, mem_rows] at hs
    obtain ⟨x, -, rfl⟩ := hs
    simp)
  refine ⟨Q, hQ.symm, ?_, ?_⟩
  · have := (sorted_npUnique (rows P)).imp (fun h => ne_of_lt h)
    rw [← hQ] at this
    exact List.Nodup.of_map _ this
  · intro x
    rw [← arr_mem_rows, hQ, mem_npUnique, arr_mem_rows]

theorem mapM_rows {β : Type} (P : List (E n)) (f : List ℝ → Res β) (g : E n → β)
    (h : ∀ x ∈ P, f (arr x) = .ok (g x)) : (rows P).mapM f = .ok (P.map g) := by
  induction P with
  | nil => rfl
  | cons x xs ih =>
    have hx := h x (by simp)
    have hxs := ih (fun y hy => h y (by simp [hy]))
    have : rows (x :: xs) = arr x :: rows xs := rfl
    simp [this, List.mapM_cons, hx, hxs]

/-! ### Column means -/

theorem rowDim_rows {P : List (E n)} (h : P ≠ []) : rowDim (rows P) = n := by
  cases P with
  | nil => exact absurd rfl h
  | cons x P => simp [rows, rowDim]

theorem column_rows (P : List (E n)) (j : Fin n) : column (rows P) j = P.map fun x => x j := by
  simp only [column, rows, List.map_map]
  congr 1
  funext x
  simp only [Function.comp]
  rw [getD_arr x j j.2]

/-- The centroid of a list of points. -/
noncomputable def centroidE (P : List (E n)) : E n := ((P.length : ℝ)⁻¹) • P.sum

theorem sum_apply (P : List (E n)) (j : Fin n) : P.sum j = (P.map fun x => x j).sum := by
  induction P with
  | nil => simp
  | cons x P ih => simp [ih]

theorem colMeans_rows {P : List (E n)} (h : P ≠ []) : Pts.colMeans (rows P) = arr (centroidE P) := by
  apply List.ext_getElem
  · simp [Pts.colMeans, rowDim_rows h]
  · intro j h1 h2
    have hj : j < n := by simpa using h2
    have := column_rows P ⟨j, hj⟩
    simp only [Pts.colMeans, List.getElem_map, List.getElem_range, arr, List.getElem_ofFn]
    simp only at this
    rw [this, sumL_real]
    simp [centroidE, sum_apply, div_eq_inv_mul]

theorem centroid_rows [NeZero n] {P : List (E n)} (h : P ≠ []) :
    Pts.centroid (rows P) = .ok (arr (centroidE P)) := by
  rw [Pts.centroid, colMeans_rows h, new1D_arr]

theorem meanCenter_rows [NeZero n] {P : List (E n)} (h : P ≠ []) :
    Pts.meanCenter (rows P) = .ok (rows (P.map fun x => x - centroidE P), arr (centroidE P)) := by
  have : (rows P).mapM (fun p => vsub p (arr (centroidE P))) =
      .ok (rows (P.map fun x => x - centroidE P)) := by
    rw [mapM_rows P _ (fun x => arr (x - centroidE P)) (by simp)]
    simp [rows, Function.comp_def]
  simp [Pts.meanCenter, centroid_rows h, this]

end SkSpatial
