import Verif.Spec.Geometry
import Verif.Lemmas.Rank
import Verif.Lemmas.XReal
import Mathlib.LinearAlgebra.AffineSpace.FiniteDimensional
/-! # C18 - C22: collections of points -/

namespace SkSpatial
open Finset

variable {n : ℕ}

/-! ## C18 -/

theorem unique_rows [NeZero n] {P : List (E n)} (hP : P ≠ []) :
    ∃ Q : List (E n), Pts.unique (rows P) = .ok (rows Q) ∧ Q.Nodup ∧ (∀ x, x ∈ Q ↔ x ∈ P) ∧
      (rows Q).Pairwise (· < ·) := by
  obtain ⟨Q, h1, h2, h3⟩ := exists_unique_rows P
  refine ⟨Q, ?_, h2, h3, ?_⟩
  · rw [Pts.unique, h1, newPoints_rows]
    rintro rfl
    obtain ⟨x, hx⟩ := List.exists_mem_of_ne_nil P hP
    exact absurd ((h3 x).mpr hx) (by simp)
  · rw [← h1]; exact sorted_npUnique _

/-- C18: `unique()` returns each distinct row once, in strictly increasing lexicographic order (the order
of `List ℝ`); it is idempotent and depends only on the set of rows. -/
theorem C18_unique [NeZero n] {P : List (E n)} (hP : P ≠ []) :
    ∃ Q : List (E n), Pts.unique (rows P) = .ok (rows Q) ∧ (∀ x, x ∈ Q ↔ x ∈ P) ∧ Q.Nodup ∧
      (rows Q).Pairwise (· < ·) ∧ Pts.unique (rows Q) = .ok (rows Q) ∧
      ∀ P' : List (E n), (∀ x, x ∈ P' ↔ x ∈ P) → Pts.unique (rows P') = .ok (rows Q) := by
  obtain ⟨Q, h1, h2, h3, h4⟩ := unique_rows hP
  have key : ∀ P' : List (E n), (∀ x, x ∈ P' ↔ x ∈ P) → Pts.unique (rows P') = .ok (rows Q) := by
    intro P' h
    have hP' : P' ≠ [] := by
      rintro rfl
      obtain ⟨x, hx⟩ := List.exists_mem_of_ne_nil P hP
      exact absurd ((h x).mpr hx) (by simp)
    obtain ⟨Q', g1, -, g3, g4⟩ := unique_rows hP'
    rw [g1]
    congr 1
    apply sorted_ext g4 h4
    intro s
    rw [mem_rows, mem_rows]
    simp only [g3, h, h3]
  exact ⟨Q, h1, h3, h2, h4, key Q h3, key⟩

example : Pts.unique (rows [vec2 2 1, vec2 1 5, vec2 2 1]) = .ok (rows [vec2 1 5, vec2 2 1]) := by
  simp [Pts.unique, npUnique, rows, arr2, insertRow, rowEq, rowLt, vec2, newPoints]

/-! ## C19 -/

theorem centroidE_sum {P : List (E n)} (hP : P ≠ []) : P.sum = (P.length : ℝ) • centroidE P := by
  have : (P.length : ℝ) ≠ 0 := by
    rw [Nat.cast_ne_zero]; exact fun h => hP (List.length_eq_zero_iff.mp h)
  rw [centroidE, smul_smul, mul_inv_cancel₀ this, one_smul]

theorem sum_map_sub (P : List (E n)) (c : E n) :
    (P.map fun x => x - c).sum = P.sum - (P.length : ℝ) • c := by
  induction P with
  | nil => simp
  | cons x P ih => simp [ih, add_smul]; abel

theorem centroidE_sub {P : List (E n)} (hP : P ≠ []) (c : E n) :
    centroidE (P.map fun x => x - c) = centroidE P - c := by
  have : (P.length : ℝ) ≠ 0 := by
    rw [Nat.cast_ne_zero]; exact fun h => hP (List.length_eq_zero_iff.mp h)
  rw [centroidE, sum_map_sub, List.length_map, smul_sub, smul_smul, inv_mul_cancel₀ this, one_smul, centroidE]

theorem sum_sq_dist (P : List (E n)) (hP : P ≠ []) (y : E n) :
    (P.map fun x => dist x y ^ 2).sum =
      (P.map fun x => dist x (centroidE P) ^ 2).sum + P.length * dist (centroidE P) y ^ 2 := by
  have aux : ∀ (L : List (E n)) (c : E n), (L.map fun x => dist x y ^ 2).sum =
      (L.map fun x => dist x c ^ 2).sum + L.length * dist c y ^ 2 +
        2 * inner ℝ (L.sum - (L.length : ℝ) • c) (c - y) := by
    intro L c
    induction L with
    | nil => simp
    | cons x L ih =>
      have h1 : dist x y ^ 2 = dist x c ^ 2 + dist c y ^ 2 + 2 * inner ℝ (x - c) (c - y) := by
        rw [dist_eq_norm, dist_eq_norm, dist_eq_norm, show x - y = (x - c) + (c - y) by abel,
          norm_add_sq_real]; ring
      simp only [List.map_cons, List.sum_cons, List.length_cons, Nat.cast_add, Nat.cast_one]
      rw [ih, h1, show x + L.sum - ((L.length : ℝ) + 1) • c = (x - c) + (L.sum - (L.length : ℝ) • c) by
        rw [add_smul, one_smul]; abel, inner_add_left]
      ring
  rw [aux P (centroidE P), centroidE_sum hP, sub_self, inner_zero_left]
  ring

/-- C19: the centroid is the arithmetic mean and the unique minimiser of the sum of squared distances. -/
theorem C19_centroid [NeZero n] {P : List (E n)} (hP : P ≠ []) :
    ∃ c : E n, Pts.centroid (rows P) = .ok (arr c) ∧ c = ((P.length : ℝ)⁻¹) • P.sum ∧
      (∀ y, (P.map fun x => dist x c ^ 2).sum ≤ (P.map fun x => dist x y ^ 2).sum) ∧
      (∀ y, (P.map fun x => dist x y ^ 2).sum = (P.map fun x => dist x c ^ 2).sum → y = c) := by
  have hl : (0 : ℝ) < P.length := by
    rw [Nat.cast_pos]; exact List.length_pos_iff.mpr hP
  refine ⟨centroidE P, centroid_rows hP, rfl, fun y => ?_, fun y hy => ?_⟩
  · rw [sum_sq_dist P hP y]
    have : 0 ≤ (P.length : ℝ) * dist (centroidE P) y ^ 2 := by positivity
    linarith
  · rw [sum_sq_dist P hP y] at hy
    have : (P.length : ℝ) * dist (centroidE P) y ^ 2 = 0 := by linarith
    rcases mul_eq_zero.mp this with h | h
    · exact absurd h hl.ne'
    · exact (dist_eq_zero.mp (pow_eq_zero_iff two_ne_zero |>.mp h)).symm

/-- C19: `mean_center` moves the centroid to the origin, keeps all differences, is undone by adding the
returned centroid, is idempotent and invariant under translation. -/
theorem C19_mean_center [NeZero n] {P : List (E n)} (hP : P ≠ []) :
    ∃ (Q : List (E n)) (c : E n), Pts.meanCenter (rows P) = .ok (rows Q, arr c) ∧
      Pts.centroid (rows P) = .ok (arr c) ∧ Pts.centroid (rows Q) = .ok (arr (0 : E n)) ∧
      Q.map (fun x => x + c) = P ∧
      Pts.meanCenter (rows Q) = .ok (rows Q, arr (0 : E n)) ∧
      (∀ t : E n, Pts.meanCenter (rows (P.map fun x => x + t)) = .ok (rows Q, arr (c + t))) := by
  set c := centroidE P with hc
  have hQ : P.map (fun x => x - c) ≠ [] := by simpa using hP
  have hQ0 : centroidE (P.map fun x => x - c) = 0 := by rw [centroidE_sub hP, sub_self]
  refine ⟨P.map fun x => x - c, c, meanCenter_rows hP, centroid_rows hP, ?_, ?_, ?_, ?_⟩
  · rw [centroid_rows hQ, hQ0]
  · simp [Function.comp_def]
  · rw [meanCenter_rows hQ, hQ0]; simp [Function.comp_def]
  · intro t
    have hPt : P.map (fun x => x + t) ≠ [] := by simpa using hP
    rw [meanCenter_rows hPt]
    have : centroidE (P.map fun x => x + t) = c + t := by
      have := centroidE_sub hP (-t)
      simpa using this
    rw [this]
    simp [Function.comp_def]

/-! ## C20 -/

theorem maxL_mem {l : List ℝ} (h : l ≠ []) : Pts.maxL l ∈ l := by
  induction l with
  | nil => exact absurd rfl h
  | cons x l ih =>
    cases l with
    | nil => simp [Pts.maxL]
    | cons y l =>
      have := ih (by simp)
      simp only [Pts.maxL, lt_real, decide_eq_true_eq]
      split
      · exact List.mem_cons_of_mem _ this
      · simp

theorem le_maxL {l : List ℝ} {x : ℝ} (h : x ∈ l) : x ≤ Pts.maxL l := by
  induction l with
  | nil => simp at h
  | cons y l ih =>
    cases l with
    | nil => simp at h; simp [Pts.maxL, h]
    | cons z l =>
      simp only [Pts.maxL, lt_real, decide_eq_true_eq]
      rcases List.mem_cons.mp h with rfl | h
      · split
        · next h1 => exact h1.le
        · exact le_rfl
      · have := ih h
        split
        · exact this
        · next h1 => exact this.trans (not_lt.mp h1)

/-- C20: `normalize_distance` scales all points by one positive factor so that they are in the unit ball
and one of them is on the unit sphere; it is idempotent. -/
theorem C20_normalize_distance {P : List (E n)} (hP : ∃ x ∈ P, x ≠ 0) :
    ∃ (Q : List (E n)) (m : ℝ), 0 < m ∧ Pts.normalizeDistance (rows P) = rows Q ∧
      Q = P.map (fun x => m⁻¹ • x) ∧ (∀ y ∈ Q, ‖y‖ ≤ 1) ∧ (∃ y ∈ Q, ‖y‖ = 1) ∧
      Pts.normalizeDistance (rows Q) = rows Q := by
  have hval : ∀ L : List (E n), Pts.normalizeDistance (rows L) =
      rows (L.map fun x => (Pts.maxL (L.map fun x => ‖x‖))⁻¹ • x) := by
    intro L
    simp [Pts.normalizeDistance, rows, Function.comp_def]
  obtain ⟨x, hx, hx0⟩ := hP
  set m := Pts.maxL (P.map fun x => ‖x‖) with hm
  have hne : P.map (fun x => ‖x‖) ≠ [] := by
    intro h; rw [List.map_eq_nil_iff] at h; subst h; simp at hx
  have hmpos : 0 < m := lt_of_lt_of_le (norm_pos_iff.mpr hx0) (le_maxL (List.mem_map_of_mem hx))
  have hle : ∀ y ∈ P.map (fun x => m⁻¹ • x), ‖y‖ ≤ 1 := by
    intro y hy
    obtain ⟨z, hz, rfl⟩ := List.mem_map.mp hy
    rw [norm_smul, norm_inv, Real.norm_of_nonneg hmpos.le, inv_mul_le_iff₀ hmpos, mul_one]
    exact le_maxL (List.mem_map_of_mem hz)
  have hex : ∃ y ∈ P.map (fun x => m⁻¹ • x), ‖y‖ = 1 := by
    obtain ⟨z, hz, hzm⟩ := List.mem_map.mp (maxL_mem hne)
    refine ⟨m⁻¹ • z, List.mem_map_of_mem hz, ?_⟩
    rw [norm_smul, norm_inv, Real.norm_of_nonneg hmpos.le, hzm, ← hm, inv_mul_cancel₀ hmpos.ne']
  refine ⟨_, m, hmpos, hval P, rfl, hle, hex, ?_⟩
  rw [hval]
  have h1 : Pts.maxL ((P.map fun x => m⁻¹ • x).map fun x => ‖x‖) = 1 := by
    apply le_antisymm
    · have hne' : (P.map fun x => m⁻¹ • x).map (fun x => ‖x‖) ≠ [] := by
        simpa using hne
      obtain ⟨z, hz, hzm⟩ := List.mem_map.mp (maxL_mem hne')
      rw [← hzm]; exact hle z hz
    · obtain ⟨y, hy, hy1⟩ := hex
      rw [← hy1]; exact le_maxL (List.mem_map_of_mem hy)
  rw [h1]; simp [Function.comp_def]

open XReal in
/-- C20: if all points are the origin the result is NaN in every entry. -/
theorem C20_normalize_distance_zero (k : ℕ) :
    Pts.normalizeDistance (List.replicate k ((arr (0 : E n)).map fin)) =
      List.replicate k (List.replicate n nan) := by
  have hz : (arr (0 : E n)).map fin = List.replicate n (fin 0) := by
    apply List.ext_getElem <;> simp [arr]
  have hn : normv ((arr (0 : E n)).map fin) = fin 0 := by
    rw [normv, xtoFloats, xdotv]
    show XReal.sqrt _ = _
    simp [XReal.sqrt]
  have hmax : ∀ k, Pts.maxL (List.replicate (k + 1) (fin 0)) = fin 0 := by
    intro k
    induction k with
    | zero => rfl
    | succ k ih =>
      have : List.replicate (k + 1 + 1) (fin 0) = fin 0 :: fin 0 :: List.replicate k (fin 0) := rfl
      rw [this]
      have e : fin 0 :: List.replicate k (fin 0) = List.replicate (k + 1) (fin 0) := rfl
      simp only [Pts.maxL]
      rw [e, ih]; simp
  cases k with
  | zero => rfl
  | succ k =>
    simp only [Pts.normalizeDistance, List.map_replicate, hn, hmax]
    congr 1
    rw [hz]
    simp only [sdiv, List.map_replicate]
    congr 1
    show XReal.div (fin 0) (fin 0) = nan
    simp [XReal.div, XReal.ofSign]

example : ∃ x ∈ [vec2 0 0, vec2 1 2], x ≠ 0 :=
  ⟨vec2 1 2, by simp, by intro h; have := congrFun (congrArg WithLp.ofLp h) 0; simp [vec2] at this⟩

/-! ## C21 -/

theorem vectorSpan_centered {Q : List (E n)} (hQ : Q ≠ []) :
    Submodule.span ℝ {x | x ∈ Q.map fun q => q - centroidE Q} = vectorSpan ℝ {x | x ∈ Q} := by
  have hl : (Q.length : ℝ) ≠ 0 := by
    rw [Nat.cast_ne_zero]; exact fun h => hQ (List.length_eq_zero_iff.mp h)
  apply le_antisymm
  · rw [Submodule.span_le]
    intro x hx
    obtain ⟨q, hq, rfl⟩ := List.mem_map.mp hx
    have : q - centroidE Q = (Q.length : ℝ)⁻¹ • (Q.map fun p => q - p).sum := by
      have h1 : (Q.map fun p => q - p).sum = (Q.length : ℝ) • q - Q.sum := by
        clear hx hq hQ hl
        induction Q with
        | nil => simp
        | cons p Q ih => simp [ih, add_smul]; abel
      rw [h1, smul_sub, smul_smul, inv_mul_cancel₀ hl, one_smul]; rfl
    show q - centroidE Q ∈ vectorSpan ℝ {x | x ∈ Q}
    rw [this]
    refine Submodule.smul_mem _ _ (list_sum_mem ?_)
    intro v hv
    obtain ⟨p, hp, rfl⟩ := List.mem_map.mp hv
    exact vsub_mem_vectorSpan ℝ (s := {x | x ∈ Q}) hq hp
  · rw [vectorSpan_def, Submodule.span_le]
    rintro _ ⟨p, hp, q, hq, rfl⟩
    have : p -ᵥ q = (p - centroidE Q) - (q - centroidE Q) := by simp
    show p -ᵥ q ∈ _
    rw [this]
    exact Submodule.sub_mem _ (Submodule.subset_span (List.mem_map.mpr ⟨p, hp, rfl⟩))
      (Submodule.subset_span (List.mem_map.mpr ⟨q, hq, rfl⟩))

open Classical in
theorem affineRank_rows [NumpyExt ℝ] [LawfulNumpy] [NeZero n] {P : List (E n)} (hP : P ≠ [])
    (tol : Option ℝ) : ∃ (A : List (E n)) (W : ℕ → E A.length) (σ : ℕ → ℝ) (V : ℕ → E n), Dec A W σ V ∧
      Submodule.span ℝ {x | x ∈ A} = vectorSpan ℝ {x | x ∈ P} ∧
      (∀ x, ∑ i : Fin A.length, (inner ℝ (A.get i) x : ℝ) ^ 2 = spread P.toFinset x) ∧
      (∀ tol', Pts.affineRank tol' (rows P) = .ok (NumpyExt.matrixRank tol' (rows A))) ∧
      (A ≠ [] ∧ A.length ≤ P.length) ∧
      Pts.affineRank tol (rows P) = .ok (Dec.cnt (min A.length n) σ
        (tol.getD (σ 0 * (max A.length n : ℕ) * (2 : ℝ)⁻¹ ^ 52))) := by
  obtain ⟨Q, h1, h2, h3, -⟩ := unique_rows hP
  have hQ : Q ≠ [] := by
    rintro rfl
    obtain ⟨x, hx⟩ := List.exists_mem_of_ne_nil P hP
    exact absurd ((h3 x).mpr hx) (by simp)
  have hA : Q.map (fun q => q - centroidE Q) ≠ [] := by simpa using hQ
  have hr : ∀ tol', Pts.affineRank tol' (rows P) =
      .ok (NumpyExt.matrixRank tol' (rows (Q.map fun q => q - centroidE Q))) := by
    intro tol'
    simp [Pts.affineRank, h1, meanCenter_rows hQ]
  obtain ⟨W, σ, V, hd, hv⟩ := matrixRank_dec hA (NeZero.ne n) tol
  refine ⟨_, W, σ, V, hd, ?_, ?_, hr, ⟨hA, ?_⟩, ?_⟩
  · rw [vectorSpan_centered hQ]
    congr 1; ext x; exact h3 x
  · intro x
    have hfin : P.toFinset = Q.toFinset := by ext y; simp [h3]
    have hc : (P.toFinset.card : ℝ)⁻¹ • ∑ p ∈ P.toFinset, p = centroidE Q := by
      rw [hfin, List.toFinset_card_of_nodup h2, List.sum_toFinset _ h2]; simp [centroidE]
    rw [spread, hc, hfin, List.sum_toFinset _ h2]
    rw [← List.sum_ofFn]
    congr 1
    apply List.ext_getElem <;> simp
  · rw [List.length_map, ← List.toFinset_card_of_nodup h2]
    have : Q.toFinset = P.toFinset := by ext y; simp [h3]
    rw [this]; exact List.toFinset_card_le P
  · rw [hr, hv]

open Classical in
/-- C21: `affine_rank(tol=t)` is the largest dimension of a subspace in all of whose directions the
distinct points spread by more than `t` about their centroid.  (`spread S x` is
`Σ ⟨q - centroid, x⟩²`; the square roots of its stationary values on the unit sphere are the singular
values of the centred points.) -/
theorem C21_affine_rank [NumpyExt ℝ] [LawfulNumpy] [NeZero n] {P : List (E n)} (hP : P ≠ []) {t : ℝ}
    (ht : 0 ≤ t) : ∃ r : ℕ, Pts.affineRank (some t) (rows P) = .ok r ∧
      ∀ k : ℕ, k ≤ r ↔ ∃ U : Submodule ℝ (E n), Module.finrank ℝ U = k ∧
        ∀ x ∈ U, x ≠ 0 → t ^ 2 * ‖x‖ ^ 2 < spread P.toFinset x := by
  obtain ⟨A, W, σ, V, hd, -, hs, -, -, hr⟩ := affineRank_rows hP (some t)
  refine ⟨_, hr, fun k => ?_⟩
  simp only [Option.getD_some]
  rw [hd.le_cnt_iff ht]
  simp only [hs]

/-- C21: the consequences for every tolerance (including NumPy's default `none`): never more than the
affine dimension, equal to it for tolerance zero and for every tolerance below the smallest non-zero
spread, antitone in the tolerance, and independent of order and multiplicity. -/
theorem C21_affine_rank_laws [NumpyExt ℝ] [LawfulNumpy] [NeZero n] {P : List (E n)} (hP : P ≠ []) :
    (∀ tol : Option ℝ, (∀ t, tol = some t → 0 ≤ t) → ∃ r, Pts.affineRank tol (rows P) = .ok r ∧
      r ≤ Module.finrank ℝ (vectorSpan ℝ {x | x ∈ P})) ∧
    Pts.affineRank (some 0) (rows P) = .ok (Module.finrank ℝ (vectorSpan ℝ {x | x ∈ P})) ∧
    (∀ t : ℝ, 0 ≤ t → (∀ x ∈ vectorSpan ℝ {x | x ∈ P}, x ≠ 0 →
        t ^ 2 * ‖x‖ ^ 2 < @spread n (@List.toFinset _ (Classical.decEq _) P) x) →
      Pts.affineRank (some t) (rows P) = .ok (Module.finrank ℝ (vectorSpan ℝ {x | x ∈ P}))) ∧
    (∀ s t : ℝ, s ≤ t → ∃ a b, Pts.affineRank (some s) (rows P) = .ok a ∧
      Pts.affineRank (some t) (rows P) = .ok b ∧ b ≤ a) ∧
    (∀ (tol : Option ℝ) (P' : List (E n)), (∀ x, x ∈ P' ↔ x ∈ P) →
      Pts.affineRank tol (rows P') = Pts.affineRank tol (rows P)) := by
  classical
  refine ⟨?_, ?_, ?_, ?_, ?_⟩
  · intro tol htol
    obtain ⟨A, W, σ, V, hd, hsp, -, -, -, hr⟩ := affineRank_rows hP tol
    refine ⟨_, hr, ?_⟩
    rw [← hsp, ← hd.cnt_zero]
    apply Dec.cnt_anti
    cases tol with
    | some t => exact htol t rfl
    | none =>
      have := hd.nonneg 0
      simp only [Option.getD_none]; positivity
  · obtain ⟨A, W, σ, V, hd, hsp, -, -, -, hr⟩ := affineRank_rows hP (some 0)
    rw [hr, ← hsp, ← hd.cnt_zero]; rfl
  · intro t ht h
    obtain ⟨A, W, σ, V, hd, hsp, hs, -, -, hr⟩ := affineRank_rows hP (some t)
    rw [hr]
    congr 1
    simp only [Option.getD_some]
    apply le_antisymm
    · rw [← hsp, ← hd.cnt_zero]; exact Dec.cnt_anti _ _ ht
    · rw [hd.le_cnt_iff ht]
      refine ⟨vectorSpan ℝ {x | x ∈ P}, rfl, fun x hx hx0 => ?_⟩
      rw [hs]
      convert h x hx hx0
  · intro s t hst
    obtain ⟨A, -, -, -, -, -, -, hr, ⟨hA, -⟩, -⟩ := affineRank_rows hP (some s)
    refine ⟨_, _, hr _, hr _, ?_⟩
    obtain ⟨W, σ, V, hd, hv⟩ := matrixRank_dec hA (NeZero.ne n) (some s)
    obtain ⟨W', σ', V', hd', hv'⟩ := matrixRank_dec hA (NeZero.ne n) (some t)
    rw [hv, hv']
    simp only [Option.getD_some]
    rcases lt_or_ge t 0 with ht | ht
    · -- below zero every singular value counts
      have : Dec.cnt (min A.length n) σ s = min A.length n := by
        classical
        unfold Dec.cnt
        rw [filter_true_of_mem, card_range]
        intro l _
        have := hd.nonneg l
        linarith
      rw [this]; exact Dec.cnt_le _ _ _
    · rcases lt_or_ge s 0 with hs | hs
      · have : Dec.cnt (min A.length n) σ s = min A.length n := by
          classical
          unfold Dec.cnt
          rw [filter_true_of_mem, card_range]
          intro l _
          have := hd.nonneg l
          linarith
        rw [this]; exact Dec.cnt_le _ _ _
      · rw [hd.le_cnt_iff hs]
        obtain ⟨U, hU, hx⟩ := (hd'.le_cnt_iff ht _).mp le_rfl
        refine ⟨U, hU, fun x hxU hx0 => lt_of_le_of_lt ?_ (hx x hxU hx0)⟩
        exact mul_le_mul_of_nonneg_right (pow_le_pow_left₀ hs hst 2) (sq_nonneg _)
  · intro tol P' h
    obtain ⟨Q, h1, -, -, -, -, h2⟩ := C18_unique hP
    simp [Pts.affineRank, h1, h2 P' h]

/-! ## C22 -/

theorem list_lt_add {a b t : List ℝ} (hab : a.length = b.length) (hat : a.length = t.length) :
    a < b → List.zipWith (· + ·) a t < List.zipWith (· + ·) b t := by
  induction a generalizing b t with
  | nil => cases b <;> simp at hab ⊢
  | cons x a ih =>
    cases b with
    | nil => simp at hab
    | cons y b =>
      cases t with
      | nil => simp at hat
      | cons z t =>
        simp only [List.zipWith_cons_cons, List.cons_lt_cons_iff, add_lt_add_iff_right, add_left_inj]
        rintro (h | ⟨h1, h2⟩)
        · exact Or.inl h
        · exact Or.inr ⟨h1, ih (by simpa using hab) (by simpa using hat) h2⟩

theorem arr_add_eq (x t : E n) : arr (x + t) = List.zipWith (· + ·) (arr x) (arr t) := by
  rw [zipWith_arr]; rfl

theorem affineRank_translate [NumpyExt ℝ] [NeZero n] {P : List (E n)} (hP : P ≠ []) (t : E n)
    (tol : Option ℝ) :
    Pts.affineRank tol (rows (P.map fun x => x + t)) = Pts.affineRank tol (rows P) := by
  obtain ⟨Q, h1, h2, h3, h4⟩ := unique_rows hP
  have hPt : P.map (fun x => x + t) ≠ [] := by simpa using hP
  obtain ⟨Q', g1, g2, g3, g4⟩ := unique_rows hPt
  have hQ : Q ≠ [] := by
    rintro rfl
    obtain ⟨x, hx⟩ := List.exists_mem_of_ne_nil P hP
    exact absurd ((h3 x).mpr hx) (by simp)
  have e : Q' = Q.map fun x => x + t := by
    apply rows_injective
    apply sorted_ext g4
    · have : rows (Q.map fun x => x + t) = Q.map fun x => arr (x + t) := by simp [rows]
      rw [this]
      rw [rows, List.pairwise_map] at h4
      rw [List.pairwise_map]
      refine h4.imp ?_
      intro a b hab
      rw [arr_add_eq, arr_add_eq]
      exact list_lt_add (by simp) (by simp) hab
    · intro s
      rw [mem_rows, mem_rows]
      constructor
      · rintro ⟨x, hx, rfl⟩
        rw [g3, List.mem_map] at hx
        obtain ⟨y, hy, rfl⟩ := hx
        exact ⟨y + t, List.mem_map.mpr ⟨y, (h3 y).mpr hy, rfl⟩, rfl⟩
      · rintro ⟨x, hx, rfl⟩
        obtain ⟨y, hy, rfl⟩ := List.mem_map.mp hx
        exact ⟨y + t, (g3 _).mpr (List.mem_map.mpr ⟨y, (h3 y).mp hy, rfl⟩), rfl⟩
  subst e
  have hQt : Q.map (fun x => x + t) ≠ [] := by simpa using hQ
  have hc : centroidE (Q.map fun x => x + t) = centroidE Q + t := by
    simpa using centroidE_sub hQ (-t)
  simp [Pts.affineRank, h1, g1, meanCenter_rows hQ, meanCenter_rows hQt, hc, Function.comp_def]

open Classical in
theorem concurrent_iff_finrank {P : List (E n)} (hP : P ≠ []) :
    (∃ c, ∀ x ∈ P, x = c) ↔ Module.finrank ℝ (vectorSpan ℝ {x | x ∈ P}) = 0 := by
  rw [Submodule.finrank_eq_zero]
  rw [vectorSpan_eq_bot_iff_subsingleton]
  obtain ⟨y, hy⟩ := List.exists_mem_of_ne_nil P hP
  constructor
  · rintro ⟨c, hc⟩ x hx z hz
    rw [hc x hx, hc z hz]
  · intro h
    exact ⟨y, fun x hx => h hx hy⟩

open Classical in
/-- C22: with tolerance zero the three predicates are exact (`Collinear` and `Coplanar` are Mathlib's).-/
theorem C22_exact [NumpyExt ℝ] [LawfulNumpy] [NeZero n] {P : List (E n)} (hP : P ≠ []) :
    Pts.areConcurrent (some 0) (rows P) = .ok (decide (∃ c, ∀ x ∈ P, x = c)) ∧
    Pts.areCollinear (some 0) (rows P) = .ok (decide (Collinear ℝ {x | x ∈ P})) ∧
    Pts.areCoplanar (some 0) (rows P) = .ok (decide (Coplanar ℝ {x | x ∈ P})) := by
  have h := (C21_affine_rank_laws hP).2.1
  refine ⟨?_, ?_, ?_⟩
  · simp [Pts.areConcurrent, h, concurrent_iff_finrank hP]
  · simp [Pts.areCollinear, h, collinear_iff_finrank_le_one]
  · simp [Pts.areCoplanar, h, coplanar_iff_finrank_le_two]

/-- C22: for every tolerance (default included) points that are really concurrent / collinear / coplanar
are accepted; each predicate implies the next; they are invariant under permutation, duplication and
translation. -/
theorem C22_predicates [NumpyExt ℝ] [LawfulNumpy] [NeZero n] {P : List (E n)} (hP : P ≠ [])
    (tol : Option ℝ) (htol : ∀ t, tol = some t → 0 ≤ t) :
    ∃ b0 b1 b2 : Bool, Pts.areConcurrent tol (rows P) = .ok b0 ∧ Pts.areCollinear tol (rows P) = .ok b1 ∧
      Pts.areCoplanar tol (rows P) = .ok b2 ∧
      ((∃ c, ∀ x ∈ P, x = c) → b0 = true) ∧ (Collinear ℝ {x | x ∈ P} → b1 = true) ∧
      (Coplanar ℝ {x | x ∈ P} → b2 = true) ∧ (b0 = true → b1 = true) ∧ (b1 = true → b2 = true) ∧
      (∀ P' : List (E n), (∀ x, x ∈ P' ↔ x ∈ P) → Pts.areConcurrent tol (rows P') = .ok b0 ∧
        Pts.areCollinear tol (rows P') = .ok b1 ∧ Pts.areCoplanar tol (rows P') = .ok b2) ∧
      (∀ t : E n, Pts.areConcurrent tol (rows (P.map fun x => x + t)) = .ok b0 ∧
        Pts.areCollinear tol (rows (P.map fun x => x + t)) = .ok b1 ∧
        Pts.areCoplanar tol (rows (P.map fun x => x + t)) = .ok b2) := by
  obtain ⟨h1, -, -, -, h5⟩ := C21_affine_rank_laws hP
  obtain ⟨r, hr, hle⟩ := h1 tol htol
  refine ⟨decide (r = 0), decide (r ≤ 1), decide (r ≤ 2), by simp [Pts.areConcurrent, hr],
    by simp [Pts.areCollinear, hr], by simp [Pts.areCoplanar, hr], ?_, ?_, ?_, ?_, ?_, ?_, ?_⟩
  · rw [concurrent_iff_finrank hP]; intro h; simp; omega
  · rw [collinear_iff_finrank_le_one]; intro h; simp; omega
  · rw [coplanar_iff_finrank_le_two]; intro h; simp; omega
  · simp; omega
  · simp; omega
  · intro P' h
    have := h5 tol P' h
    simp [Pts.areConcurrent, Pts.areCollinear, Pts.areCoplanar, this, hr]
  · intro t
    have := affineRank_translate hP t tol
    simp [Pts.areConcurrent, Pts.areCollinear, Pts.areCoplanar, this, hr]

end SkSpatial
