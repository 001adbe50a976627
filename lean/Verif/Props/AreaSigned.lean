import Verif.Props.Measurement
import Mathlib.Data.List.GetD
import Mathlib.Data.List.Rotate
/-! # C67: `area_signed` -/

namespace SkSpatial

/-- The sum of `det2E` along a path. -/
def pathSum (p : E 2) : List (E 2) → ℝ
  | [] => 0
  | q :: r => det2E p q + pathSum q r

theorem det2E_swap (p q : E 2) : det2E q p = -det2E p q := by simp [det2E]; ring
theorem det2E_self (p : E 2) : det2E p p = 0 := by simp [det2E]; ring

theorem pathSum_append (p q : E 2) (A B : List (E 2)) :
    pathSum p (A ++ q :: B) = pathSum p (A ++ [q]) + pathSum q B := by
  induction A generalizing p with
  | nil => simp [pathSum]
  | cons a A ih => simp [pathSum, ih]; ring

theorem pathSum_sum (p : E 2) (L : List (E 2)) :
    pathSum p L = ∑ i ∈ Finset.range L.length, det2E ((p :: L).getD i 0) ((p :: L).getD (i + 1) 0) := by
  induction L generalizing p with
  | nil => simp [pathSum]
  | cons q L ih =>
    rw [pathSum, ih, List.length_cons, Finset.sum_range_succ', add_comm]
    simp

/-- The value of `area_signed`, as a closed path. -/
theorem areaSigned_rows (p : E 2) (r : List (E 2)) (h : 2 ≤ r.length) :
    Measurement.areaSigned (rows (p :: r)) = .ok (1 / 2 * pathSum p (r ++ [p])) := by
  have hne : p :: r ≠ [] := by simp
  have hX := column_rows (p :: r) (0 : Fin 2)
  have hY := column_rows (p :: r) (1 : Fin 2)
  simp only [Fin.val_zero, Fin.val_one] at hX hY
  have hlen : ¬ (p :: r).length < 3 := by simp; omega
  simp only [Measurement.areaSigned, newPoints_rows hne, ok_bind, rowDim_rows hne, length_rows, hX, hY,
    ne_eq, not_true_eq_false, if_false, if_neg hlen, pure_ok]
  congr 1
  rw [sumL_real]
  have hg : ∀ (i : ℕ) (j : Fin 2), ((p :: r).map fun x => x j).getD i 0 = ((p :: r).getD i 0) j := by
    intro i j
    simp only [List.getD_eq_getElem?_getD, List.getElem?_map]
    cases (p :: r)[i]? <;> simp
  have hsum : ((List.range (p :: r).length).map fun i =>
      ((p :: r).map fun x => x 0).getD (if i = 0 then (p :: r).length - 1 else i - 1) 0 *
        ((p :: r).map fun x => x 1).getD i 0 - ((p :: r).map fun x => x 0).getD i 0 *
        ((p :: r).map fun x => x 1).getD (if i = 0 then (p :: r).length - 1 else i - 1) 0).sum =
      pathSum p (r ++ [p]) := by
    simp only [hg]
    have hl : ∀ (m : ℕ) (f : ℕ → ℝ), ((List.range m).map f).sum = ∑ i ∈ Finset.range m, f i := fun _ _ => rfl
    rw [pathSum_sum, hl, List.length_append, List.length_cons, List.length_singleton,
      Finset.sum_range_succ', Finset.sum_range_succ]
    congr 1
    · refine Finset.sum_congr rfl fun i hi => ?_
      have hi' : i < r.length := Finset.mem_range.mp hi
      have e1 : (p :: (r ++ [p])).getD i 0 = (p :: r).getD i 0 := by
        rw [← List.cons_append, List.getD_append _ _ _ _ (by simp; omega)]
      have e2 : (p :: (r ++ [p])).getD (i + 1) 0 = (p :: r).getD (i + 1) 0 := by
        rw [← List.cons_append, List.getD_append _ _ _ _ (by simp; omega)]
      rw [e1, e2, det2E]
      simp
      ring
    · have e1 : (p :: (r ++ [p])).getD r.length 0 = (p :: r).getD r.length 0 := by
        rw [← List.cons_append, List.getD_append _ _ _ _ (by simp)]
      have e2 : (p :: (r ++ [p])).getD (r.length + 1) 0 = p := by simp
      rw [e1, e2, det2E]
      simp
      ring
  simpa [half] using hsum

/-- Twice the signed area: the closed path through the vertices. -/
def closedSum : List (E 2) → ℝ
  | [] => 0
  | p :: r => pathSum p (r ++ [p])

theorem areaSigned_closed {P : List (E 2)} (h : 3 ≤ P.length) :
    Measurement.areaSigned (rows P) = .ok (1 / 2 * closedSum P) := by
  cases P with
  | nil => simp at h
  | cons p r => exact areaSigned_rows p r (by simp at h; omega)

theorem closedSum_rotate_one (P : List (E 2)) : closedSum (P.rotate 1) = closedSum P := by
  cases P with
  | nil => rfl
  | cons p r =>
    rw [List.rotate_cons_succ, List.rotate_zero]
    cases r with
    | nil => rfl
    | cons q r =>
      have := pathSum_append q p r [q]
      simp only [List.cons_append, closedSum, pathSum, List.append_assoc, List.nil_append] at this ⊢
      rw [this]; ring

theorem closedSum_rotate (P : List (E 2)) (k : ℕ) : closedSum (P.rotate k) = closedSum P := by
  induction k with
  | zero => simp
  | succ k ih => rw [← List.rotate_rotate, closedSum_rotate_one, ih]

theorem pathSum_reverse (p q : E 2) (r : List (E 2)) :
    pathSum q (r.reverse ++ [p]) = -pathSum p (r ++ [q]) := by
  induction r generalizing p with
  | nil => simp [pathSum, det2E_swap p q]
  | cons a r ih =>
    rw [List.reverse_cons, List.append_assoc, List.singleton_append, pathSum_append, ih]
    simp [pathSum, det2E_swap p a]

theorem closedSum_reverse (P : List (E 2)) : closedSum P.reverse = -closedSum P := by
  cases P with
  | nil => simp [closedSum]
  | cons p r =>
    have : (p :: r).reverse = (p :: r.reverse).rotate 1 := by
      rw [List.rotate_cons_succ, List.rotate_zero, List.reverse_cons]
    rw [this, closedSum_rotate]
    exact pathSum_reverse p p r

theorem det2E_map (f : E 2 →ₗ[ℝ] E 2) (x y : E 2) : det2E (f x) (f y) = LinearMap.det f * det2E x y := by
  have h := (EuclideanSpace.basisFun (Fin 2) ℝ).toBasis.det_comp f ![x, y]
  have e : ∀ u v : E 2, (EuclideanSpace.basisFun (Fin 2) ℝ).toBasis.det ![u, v] = det2E u v := by
    intro u v
    rw [Module.Basis.det_apply, Matrix.det_fin_two]
    simp [Module.Basis.toMatrix_apply, det2E]; ring
  have e2 : f ∘ ![x, y] = ![f x, f y] := by funext i; fin_cases i <;> rfl
  rw [e2, e, e] at h
  exact h

theorem pathSum_map (f : E 2 →ₗ[ℝ] E 2) (t p q : E 2) (r : List (E 2)) :
    pathSum (f p + t) ((r ++ [q]).map fun x => f x + t) =
      LinearMap.det f * pathSum p (r ++ [q]) + det2E t (f q) - det2E t (f p) := by
  have h : ∀ x y : E 2, det2E (f x + t) (f y + t) =
      LinearMap.det f * det2E x y + det2E t (f y) - det2E t (f x) := by
    intro x y
    rw [← det2E_map]; simp [det2E]; ring
  induction r generalizing p with
  | nil => simp [pathSum, h]
  | cons a r ih => 
    simp only [List.cons_append, List.map_cons, pathSum, ih, h]; ring

/-- C67: `area_signed` is the shoelace sum. -/
theorem C67_shoelace {m : ℕ} [NeZero m] (hm : 3 ≤ m) (v : Fin m → E 2) :
    Measurement.areaSigned (rows (List.ofFn v)) = .ok (shoelace v) := by
  rw [areaSigned_closed (by simpa using hm), shoelace]
  congr 2
  obtain ⟨k, rfl⟩ : ∃ k, m = k + 1 := ⟨m - 1, by omega⟩
  rw [List.ofFn_succ, closedSum, pathSum_sum]
  have hlen : (List.ofFn (fun i : Fin k => v i.succ) ++ [v 0]).length = k + 1 := by simp
  rw [hlen, Finset.sum_range]
  refine Finset.sum_congr rfl fun i _ => ?_
  have hg : ∀ j : ℕ, (hj : j < k + 1) →
      (v 0 :: (List.ofFn (fun i : Fin k => v i.succ) ++ [v 0])).getD j 0 = v ⟨j, hj⟩ := by
    intro j hj
    rw [← List.cons_append, ← List.ofFn_succ, List.getD_append _ _ _ _ (by simpa using hj),
      List.getD_eq_getElem _ _ (by simpa using hj), List.getElem_ofFn]
  rw [hg i i.2]
  congr 1
  by_cases hi : (i : ℕ) + 1 < k + 1
  · rw [hg _ hi]
    congr 1
    apply Fin.ext
    rw [Fin.val_add_one_of_lt' hi]
  · have hik : (i : ℕ) = k := by omega
    have : i + 1 = 0 := by
      have : i = Fin.last k := Fin.ext (by simpa using hik)
      rw [this, Fin.last_add_one]
    rw [this, hik, ← List.cons_append, List.getD_append_right _ _ _ _ (by simp)]
    simp

/-- C67: rotation of the vertex list, reversal, and every affine map of the plane (translations,
scalings, rotations, reflections). -/
theorem C67_area_signed_laws {P : List (E 2)} (h : 3 ≤ P.length) :
    ∃ s : ℝ, Measurement.areaSigned (rows P) = .ok s ∧
      (∀ k : ℕ, Measurement.areaSigned (rows (P.rotate k)) = .ok s) ∧
      Measurement.areaSigned (rows P.reverse) = .ok (-s) ∧
      (∀ (f : E 2 →ₗ[ℝ] E 2) (t : E 2),
        Measurement.areaSigned (rows (P.map fun x => f x + t)) = .ok (LinearMap.det f * s)) ∧
      (∀ t : E 2, Measurement.areaSigned (rows (P.map fun x => x + t)) = .ok s) ∧
      (∀ c : ℝ, Measurement.areaSigned (rows (P.map fun x => c • x)) = .ok (c ^ 2 * s)) := by
  have hf : ∀ (f : E 2 →ₗ[ℝ] E 2) (t : E 2), Measurement.areaSigned (rows (P.map fun x => f x + t)) =
      .ok (LinearMap.det f * (1 / 2 * closedSum P)) := by
    intro f t
    rw [areaSigned_closed (by simpa using h)]
    congr 1
    cases P with
    | nil => simp at h
    | cons p r =>
      have := pathSum_map f t p p r
      simp only [closedSum, List.map_cons, List.map_append, List.map_nil] at this ⊢
      rw [this]; ring
  refine ⟨_, areaSigned_closed h, fun k => ?_, ?_, hf, fun t => ?_, fun c => ?_⟩
  · rw [areaSigned_closed (by simpa using h), closedSum_rotate]
  · rw [areaSigned_closed (by simpa using h), closedSum_reverse]; congr 1; ring
  · simpa using hf LinearMap.id t
  · have := hf (c • LinearMap.id) 0
    simpa using this

/-- C67: cutting a polygon along a diagonal. -/
theorem C67_diagonal (p q : E 2) {A B : List (E 2)} (hA : A ≠ []) (hB : B ≠ []) :
    ∃ s t : ℝ, Measurement.areaSigned (rows (p :: A ++ [q])) = .ok s ∧
      Measurement.areaSigned (rows (q :: B ++ [p])) = .ok t ∧
      Measurement.areaSigned (rows (p :: A ++ q :: B)) = .ok (s + t) := by
  have ha : 0 < A.length := List.length_pos_iff.mpr hA
  have hb : 0 < B.length := List.length_pos_iff.mpr hB
  refine ⟨_, _, areaSigned_closed (by simp; omega), areaSigned_closed (by simp; omega), ?_⟩
  rw [areaSigned_closed (by simp; omega)]
  congr 1
  have h1 := pathSum_append p q A (B ++ [p])
  have h2 := pathSum_append p q A [p]
  have h3 := pathSum_append q p B [q]
  simp only [List.cons_append, closedSum, List.append_assoc, List.nil_append] at h1 h2 h3 ⊢
  rw [h1, h2, h3]
  simp [pathSum, det2E_swap p q]
  ring

/-- C67: for a triangle `area_signed` is half the determinant of the edge vectors at any vertex: up to
sign `area_triangle`, and positive exactly for counter-clockwise vertices. -/
theorem C67_triangle (a b c : E 2) :
    ∃ s : ℝ, Measurement.areaSigned (rows [a, b, c]) = .ok s ∧ s = 1 / 2 * det2E (b - a) (c - a) ∧
      Measurement.areaTriangle (arr a) (arr b) (arr c) = .ok |s| := by
  refine ⟨_, areaSigned_closed (by simp), ?_, ?_⟩
  · simp [closedSum, pathSum, det2E]; ring
  · rw [areaTriangle_arr (by norm_num)]
    have h1 : crossE (pad3 (b - a)) (pad3 (c - a)) = vec3 0 0 (closedSum [a, b, c]) := by
      ext i; fin_cases i <;> simp [crossE, vec3, padTo, closedSum, pathSum, det2E]; ring
    have h2 : ∀ z : ℝ, ‖vec3 0 0 z‖ = |z| := by
      intro z; rw [← Real.sqrt_sq_eq_abs, ← Real.sqrt_sq (norm_nonneg _), norm_sq3]; simp [vec3]
    rw [h1, h2, abs_mul]; norm_num

/-- C67: the signed area is the sum of the signed areas of the triangles of the fan at the first
vertex (also for non-convex and self-intersecting polygons). -/
theorem C67_fan (p q : E 2) {r : List (E 2)} (hr : r ≠ []) :
    ∃ tri : E 2 → E 2 → ℝ, (∀ a b, Measurement.areaSigned (rows [p, a, b]) = .ok (tri a b)) ∧
      Measurement.areaSigned (rows (p :: q :: r)) = .ok (List.zipWith tri (q :: r) r).sum := by
  have hl : 0 < r.length := List.length_pos_iff.mpr hr
  refine ⟨fun a b => 1 / 2 * closedSum [p, a, b], fun a b => areaSigned_closed (by simp), ?_⟩
  rw [areaSigned_closed (by simp; omega)]
  congr 1
  have key : ∀ (r : List (E 2)) (q : E 2), 1 / 2 * closedSum (p :: q :: r) =
      (List.zipWith (fun a b => 1 / 2 * closedSum [p, a, b]) (q :: r) r).sum := by
    intro r
    induction r with
    | nil => intro q; simp [closedSum, pathSum, det2E_swap p q]
    | cons a r ih =>
      intro q
      rw [List.zipWith_cons_cons, List.sum_cons, ← ih a]
      simp [closedSum, pathSum, det2E_swap p a]; ring
  exact key r q

/-- C67: rejected inputs. -/
theorem C67_errors :
    (∀ P : List (E 2), P.length < 3 → ∃ msg, Measurement.areaSigned (rows P) = .error (.valueError msg)) ∧
    ∀ (n : ℕ) (P : List (E n)), n ≠ 2 → ∃ msg, Measurement.areaSigned (rows P) = .error (.valueError msg) := by
  constructor
  · intro P h
    by_cases hP : P = []
    · subst hP; exact ⟨_, by simp [Measurement.areaSigned, newPoints_rows_nil]; rfl⟩
    · exact ⟨_, by simp [Measurement.areaSigned, newPoints_rows hP, rowDim_rows hP, h]; rfl⟩
  · intro n P h
    by_cases hP : P = []
    · subst hP; exact ⟨_, by simp [Measurement.areaSigned, newPoints_rows_nil]; rfl⟩
    · rcases Nat.eq_zero_or_pos n with h0 | h0
      · subst h0
        refine ⟨"The array must not be empty.", ?_⟩
        cases P with
        | nil => exact absurd rfl hP
        | cons x P =>
          have : newPoints (rows (x :: P)) = .error (.valueError "The array must not be empty.") := by
            simp [newPoints, rows, arr]
          simp [Measurement.areaSigned, this]
      · have : NeZero n := ⟨by omega⟩
        exact ⟨_, by simp [Measurement.areaSigned, newPoints_rows hP, rowDim_rows hP, h]; rfl⟩

/-- The unit square, counter-clockwise, has signed area 1. -/
example : Measurement.areaSigned (rows [vec2 0 0, vec2 1 0, vec2 1 1, vec2 0 1]) = .ok 1 := by
  rw [areaSigned_closed (by simp)]
  simp [closedSum, pathSum, det2E, vec2]; norm_num

end SkSpatial
