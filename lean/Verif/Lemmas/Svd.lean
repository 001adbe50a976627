import Verif.Lemmas.Rank
import Mathlib.Analysis.InnerProductSpace.Spectrum
import Mathlib.Analysis.InnerProductSpace.Adjoint
/-! # The contract `LawfulNumpy` can be met -/

namespace SkSpatial
open Finset

variable {n : ℕ}

/-- Every matrix has a singular value decomposition with full bases. -/
theorem exists_svd (A : List (E n)) : ∃ (W : ℕ → E A.length) (σ : ℕ → ℝ) (V : ℕ → E n),
    Orthonormal ℝ (fun l : Fin A.length => W l) ∧ Orthonormal ℝ (fun l : Fin n => V l) ∧
    (∀ l, 0 ≤ σ l) ∧ Antitone σ ∧
    (∀ i : Fin A.length, A.get i = ∑ l ∈ range (min A.length n), (σ l * W l i) • V l) := by
  classical
  obtain ⟨m, hm⟩ : ∃ m, m = A.length := ⟨_, rfl⟩
  let T : E n →ₗ[ℝ] E A.length :=
    { toFun := fun x => WithLp.toLp 2 fun i => inner ℝ (A.get i) x
      map_add' := by intro x y; ext i; simp [inner_add_right]
      map_smul' := by intro c x; ext i; simp [inner_smul_right] }
  have hT : ∀ x i, T x i = inner ℝ (A.get i) x := fun x i => rfl
  have hS : (LinearMap.adjoint T ∘ₗ T).IsSymmetric := by
    intro x y
    simp [LinearMap.adjoint_inner_left, LinearMap.adjoint_inner_right]
  have hn : Module.finrank ℝ (E n) = n := by simp
  let B := hS.eigenvectorBasis hn
  let ev := hS.eigenvalues hn
  have hTT : ∀ i j, inner ℝ (T (B i)) (T (B j)) = if i = j then ev j else 0 := by
    intro i j
    rw [← LinearMap.adjoint_inner_right]
    have : LinearMap.adjoint T (T (B j)) = (ev j : ℝ) • B j := by
      exact hS.apply_eigenvectorBasis hn j
    rw [this, inner_smul_right, orthonormal_iff_ite.mp B.orthonormal i j]
    simp
  have hev0 : ∀ i, 0 ≤ ev i := by
    intro i
    have := hTT i i
    simp only [if_true] at this
    rw [← this]; exact real_inner_self_nonneg
  have hanti : Antitone ev := hS.eigenvalues_antitone hn
  -- positive eigenvalues have small indices
  have hpos : ∀ i, 0 < ev i → (i : ℕ) < A.length := by
    intro i hi
    have hon : Orthonormal ℝ (fun j : Fin (i + 1) =>
        (Real.sqrt (ev (j.castLE i.isLt)))⁻¹ • T (B (j.castLE i.isLt))) := by
      rw [orthonormal_iff_ite]
      intro j k
      rw [inner_smul_left, inner_smul_right, hTT]
      have hk : 0 < ev (k.castLE i.isLt) := lt_of_lt_of_le hi (hanti (by
        rw [Fin.le_def]; simpa using Nat.lt_succ_iff.mp k.isLt))
      by_cases h : j = k
      · subst h
        have := Real.mul_self_sqrt hk.le
        have h0 := (Real.sqrt_pos.mpr hk).ne'
        simp only [if_true, conj_trivial]
        field_simp
        rw [Real.sq_sqrt hk.le]
      · have h' : j.castLE i.isLt ≠ k.castLE i.isLt := fun e => h (Fin.castLE_injective _ e)
        simp [h, h']
    have := hon.linearIndependent.fintype_card_le_finrank
    simp at this
    omega
  -- the left singular vectors
  let v : Fin A.length → E A.length := fun i =>
    if h : (i : ℕ) < n then (Real.sqrt (ev ⟨i, h⟩))⁻¹ • T (B ⟨i, h⟩) else 0
  let s : Set (Fin A.length) := {i | ∃ h : (i : ℕ) < n, 0 < ev ⟨i, h⟩}
  have hv : Orthonormal ℝ (s.domRestrict v) := by
    rw [orthonormal_iff_ite]
    rintro ⟨j, hj, hj'⟩ ⟨k, hk, hk'⟩
    simp only [Set.domRestrict_apply, v, hj, hk, dif_pos, inner_smul_left, inner_smul_right, hTT, conj_trivial]
    by_cases h : j = k
    · subst h
      have h0 := (Real.sqrt_pos.mpr hk').ne'
      simp only [if_true]
      field_simp
      rw [Real.sq_sqrt hk'.le]
    · have h' : ¬ ((⟨j, hj⟩ : Fin n) = ⟨k, hk⟩) := by
        intro e; apply h; ext; simpa using e
      simp [h, h']
  obtain ⟨W, hW⟩ := hv.exists_orthonormalBasis_extension_of_card_eq (by simp)
  refine ⟨fun l => if h : l < A.length then W ⟨l, h⟩ else 0, fun l => if h : l < n then Real.sqrt (ev ⟨l, h⟩) else 0,
    fun l => if h : l < n then B ⟨l, h⟩ else 0, ?_, ?_, ?_, ?_, ?_⟩
  · simpa using W.orthonormal
  · simpa using B.orthonormal
  · intro l; dsimp only; split
    · exact Real.sqrt_nonneg _
    · exact le_rfl
  · intro a b hab
    dsimp only
    split
    · rename_i hb
      rw [dif_pos (by omega)]
      exact Real.sqrt_le_sqrt (hanti (by simpa [Fin.le_def] using hab))
    · split
      · exact Real.sqrt_nonneg _
      · exact le_rfl
  · intro i
    have h1 : A.get i = ∑ l : Fin n, (T (B l) i) • B l := by
      rw [← B.sum_repr (A.get i)]
      refine sum_congr rfl fun l _ => ?_
      rw [B.repr_apply_apply, hT]
      congr 1
      exact real_inner_comm _ _
    have h2 : ∀ l : Fin n, T (B l) i =
        if h : (l : ℕ) < A.length then Real.sqrt (ev l) * W ⟨l, h⟩ i else 0 := by
      intro l
      by_cases hp : 0 < ev l
      · have hl := hpos l hp
        rw [dif_pos hl, hW ⟨l, hl⟩ ⟨l.isLt, hp⟩]
        have h0 := (Real.sqrt_pos.mpr hp).ne'
        simp [v, mul_inv_cancel_left₀ h0]
      · have h0 : ev l = 0 := le_antisymm (not_lt.mp hp) (hev0 l)
        have : T (B l) = 0 := by
          have := hTT l l
          rw [if_pos rfl, h0, inner_self_eq_zero] at this
          exact this
        rw [this, h0]; simp
    have h3 : A.get i = ∑ l ∈ range n, (if h : l < n then (if h' : l < A.length then
        Real.sqrt (ev ⟨l, h⟩) * W ⟨l, h'⟩ i else 0) • B ⟨l, h⟩ else 0) := by
      rw [h1, ← Fin.sum_univ_eq_sum_range (fun l => (if h : l < n then (if h' : l < A.length then
        Real.sqrt (ev ⟨l, h⟩) * W ⟨l, h'⟩ i else 0) • B ⟨l, h⟩ else 0))]
      refine sum_congr rfl fun l _ => ?_
      rw [h2]; simp
    rw [h3]
    symm
    refine sum_subset_zero_on_sdiff (range_subset_range.mpr (min_le_right _ _)) ?_ ?_
    · intro l hl
      simp only [mem_sdiff, mem_range] at hl
      rw [dif_pos hl.1, dif_neg (by omega)]; simp
    · intro l hl
      simp only [mem_range] at hl
      have h1 : l < n := by omega
      have h2 : l < A.length := by omega
      simp [h1, h2]

/-- Every matrix has a decomposition in the shape `np.linalg.svd` returns. -/
theorem exists_isSVD (A : List (E n)) (full : Bool) : ∃ usv, IsSVD A full usv := by
  obtain ⟨W, σ, V, h1, h2, h3, h4, h5⟩ := exists_svd A
  exact ⟨(_, _, _), W, σ, V, orthonormal_sub (by split <;> omega) h1, orthonormal_sub (by split <;> omega) h2,
    h3, h4, h5, rfl, rfl, rfl⟩

theorem rows_determines {n n' : ℕ} {A : List (E n)} {A' : List (E n')} (hA : A ≠ []) (h : rows A' = rows A) :
    n' = n ∧ HEq A' A := by
  obtain ⟨x, A, rfl⟩ := List.exists_cons_of_ne_nil hA
  cases A' with
  | nil => simp [rows] at h
  | cons y A' =>
    have : (arr y).length = (arr x).length := by
      simp only [rows, List.map_cons, List.cons.injEq] at h; rw [h.1]
    simp at this
    subst this
    exact ⟨rfl, heq_of_eq (rows_injective h)⟩

theorem exists_solution_unique {A : List (E n)} (hA : A.length = n) (hli : LinearIndependent ℝ A.get) {b x y : E n}
    (hx : ∀ i : Fin n, inner ℝ (A.get (i.cast hA.symm)) x = b i)
    (hy : ∀ i : Fin n, inner ℝ (A.get (i.cast hA.symm)) y = b i) : x = y := by
  have hspan : Submodule.span ℝ (Set.range A.get) = ⊤ :=
    hli.span_eq_top_of_card_eq_finrank' (by simp [hA])
  have h : ∀ v : E n, inner ℝ v (x - y) = 0 := by
    intro v
    have hv : v ∈ Submodule.span ℝ (Set.range A.get) := by rw [hspan]; trivial
    induction hv using Submodule.span_induction with
    | mem z hz =>
      obtain ⟨i, rfl⟩ := hz
      have := hx (i.cast hA); have := hy (i.cast hA)
      simp_all [inner_sub_right]
    | zero => simp
    | add a b _ _ ha hb => rw [inner_add_left, ha, hb, add_zero]
    | smul c a _ ha => rw [inner_smul_left, ha, mul_zero]
  exact sub_eq_zero.mp (inner_self_eq_zero.mp (h (x - y)))

open Classical in
/-- An implementation of the external routines over the exact reals, with a given optimiser. -/
noncomputable def realNumpy (powell : (ℝ → ℝ → ℝ) → ℝ × ℝ → ℝ × ℝ) : NumpyExt ℝ where
  matrixRank tol L :=
    if h : ∃ k : ℕ, ∃ n, ∃ A : List (E n), A ≠ [] ∧ n ≠ 0 ∧ rows A = L ∧ ∃ usv, IsSVD A false usv ∧
      k = usv.2.1.countP fun s => decide (tol.getD (rankTol A.length n usv.2.1) < s) then h.choose else 0
  svd full L :=
    if h : ∃ usv, ∃ n, ∃ A : List (E n), A ≠ [] ∧ n ≠ 0 ∧ rows A = L ∧ IsSVD A full usv then h.choose else ([], [], [])
  solve L v :=
    if h : ∃ r, ∃ n, ∃ A : List (E n), ∃ b x : E n, ∃ hA : A.length = n, rows A = L ∧ arr b = v ∧ r = arr x ∧
      LinearIndependent ℝ A.get ∧ (∀ i : Fin n, inner ℝ (A.get (i.cast hA.symm)) x = b i)
    then .ok h.choose else .error (.linAlgError "Singular matrix")
  lstsq L v :=
    if h : ∃ r, ∃ n, ∃ A : List (E n), ∃ b : E A.length, A ≠ [] ∧ n ≠ 0 ∧ rows A = L ∧ arr b = v ∧
      ∃ (W : ℕ → E A.length) (σ : ℕ → ℝ) (V : ℕ → E n),
        Orthonormal ℝ (fun l : Fin (min A.length n) => W l) ∧
        Orthonormal ℝ (fun l : Fin (min A.length n) => V l) ∧
        (∀ l, 0 ≤ σ l) ∧ Antitone σ ∧
        (∀ i : Fin A.length, A.get i = ∑ l ∈ Finset.range (min A.length n), (σ l * W l i) • V l) ∧
        r = arr (∑ l ∈ (Finset.range (min A.length n)).filter
            (fun l => (2 : ℝ)⁻¹ ^ 52 * (max A.length n : ℕ) * σ 0 < σ l),
              ((inner ℝ (W l) b : ℝ) / σ l) • V l)
    then h.choose else []
  minimizePowell := powell

/-- The implementation meets the contract: the assumptions of the theorems are consistent, whatever the
optimiser does. -/
theorem realNumpy_lawful (powell : (ℝ → ℝ → ℝ) → ℝ × ℝ → ℝ × ℝ) : @LawfulNumpy (realNumpy powell) := by
  classical
  letI := realNumpy powell
  constructor
  · intro n A full hA hn
    obtain ⟨usv, hu⟩ := exists_isSVD A full
    have h : ∃ usv, ∃ n', ∃ A' : List (E n'), A' ≠ [] ∧ n' ≠ 0 ∧ rows A' = rows A ∧ IsSVD A' full usv :=
      ⟨usv, n, A, hA, hn, rfl, hu⟩
    have hs := h.choose_spec
    show IsSVD A full (dite _ _ _)
    rw [dif_pos h]
    obtain ⟨n', A', -, -, e, hs⟩ := hs
    obtain ⟨rfl, e'⟩ := rows_determines hA e
    cases e'
    exact hs
  · intro n A tol hA hn
    obtain ⟨usv, hu⟩ := exists_isSVD A false
    have h : ∃ k : ℕ, ∃ n', ∃ A' : List (E n'), A' ≠ [] ∧ n' ≠ 0 ∧ rows A' = rows A ∧ ∃ usv, IsSVD A' false usv ∧
      k = usv.2.1.countP fun s => decide (tol.getD (rankTol A'.length n' usv.2.1) < s) :=
      ⟨_, n, A, hA, hn, rfl, usv, hu, rfl⟩
    have hs := h.choose_spec
    show ∃ usv, IsSVD A false usv ∧ dite _ _ _ = _
    obtain ⟨n', A', -, -, e, usv', hs, hk⟩ := hs
    obtain ⟨rfl, e'⟩ := rows_determines hA e
    cases e'
    refine ⟨usv', hs, ?_⟩
    rw [dif_pos h, hk]
  · intro n A b x hA hli hx
    have h : ∃ r, ∃ n', ∃ A' : List (E n'), ∃ b' x' : E n', ∃ hA' : A'.length = n', rows A' = rows A ∧ arr b' = arr b ∧
        r = arr x' ∧ LinearIndependent ℝ A'.get ∧ (∀ i : Fin n', inner ℝ (A'.get (i.cast hA'.symm)) x' = b' i) :=
      ⟨_, n, A, b, x, hA, rfl, rfl, rfl, hli, hx⟩
    have hs := h.choose_spec
    show dite _ _ _ = _
    rw [dif_pos h]
    obtain ⟨n', A', b', x', hA', e1, e2, e3, h4, h5⟩ := hs
    have : n' = n := by have := congrArg List.length e2; simpa using this
    subst this
    have := rows_injective e1; subst this
    have := arr_injective e2; subst this
    rw [e3, exists_solution_unique hA' h4 h5 hx]
  · intro n A b hA hli
    show dite _ _ _ = _
    rw [dif_neg]
    rintro ⟨r, n', A', b', x', hA', e1, e2, e3, h4, h5⟩
    have : n' = n := by have := congrArg List.length e2; simpa using this
    subst this
    have := rows_injective e1; subst this
    exact hli h4
  · intro n A b hA hn
    obtain ⟨W, σ, V, h1, h2, h3, h4, h5⟩ := exists_svd A
    have h : ∃ r, ∃ n', ∃ A' : List (E n'), ∃ b' : E A'.length, A' ≠ [] ∧ n' ≠ 0 ∧ rows A' = rows A ∧ arr b' = arr b ∧
      ∃ (W : ℕ → E A'.length) (σ : ℕ → ℝ) (V : ℕ → E n'),
        Orthonormal ℝ (fun l : Fin (min A'.length n') => W l) ∧
        Orthonormal ℝ (fun l : Fin (min A'.length n') => V l) ∧
        (∀ l, 0 ≤ σ l) ∧ Antitone σ ∧
        (∀ i : Fin A'.length, A'.get i = ∑ l ∈ Finset.range (min A'.length n'), (σ l * W l i) • V l) ∧
        r = arr (∑ l ∈ (Finset.range (min A'.length n')).filter
            (fun l => (2 : ℝ)⁻¹ ^ 52 * (max A'.length n' : ℕ) * σ 0 < σ l),
              ((inner ℝ (W l) b' : ℝ) / σ l) • V l) :=
      ⟨_, n, A, b, hA, hn, rfl, rfl, W, σ, V, orthonormal_sub (min_le_left _ _) h1, orthonormal_sub (min_le_right _ _) h2,
        h3, h4, h5, rfl⟩
    have hs := h.choose_spec
    obtain ⟨n', A', b', -, -, e, eb, W', σ', V', g1, g2, g3, g4, g5, g6⟩ := hs
    obtain ⟨rfl, e'⟩ := rows_determines hA e
    cases e'
    have := arr_injective eb; subst this
    refine ⟨W', σ', V', g1, g2, g3, g4, g5, ?_⟩
    show dite _ _ _ = _
    rw [dif_pos h, g6]

/-- The contract is satisfiable. -/
theorem exists_lawfulNumpy (powell : (ℝ → ℝ → ℝ) → ℝ × ℝ → ℝ × ℝ) :
    ∃ inst : NumpyExt ℝ, @LawfulNumpy inst ∧ inst.minimizePowell = powell :=
  ⟨realNumpy powell, realNumpy_lawful powell, rfl⟩

end SkSpatial
