import Verif.Spec.Numpy
import Verif.Lemmas.Points
import Mathlib.LinearAlgebra.Dimension.Constructions
import Mathlib.Analysis.InnerProductSpace.Projection.FiniteDimensional
/-! # Consequences of a singular value decomposition -/

namespace SkSpatial
open Finset

variable {n : ℕ}

/-- The reduced decomposition contained in every SVD. -/
structure Dec (A : List (E n)) (W : ℕ → E A.length) (σ : ℕ → ℝ) (V : ℕ → E n) : Prop where
  hW : Orthonormal ℝ (fun l : Fin (min A.length n) => W l)
  hV : Orthonormal ℝ (fun l : Fin (min A.length n) => V l)
  nonneg : ∀ l, 0 ≤ σ l
  anti : Antitone σ
  dec : ∀ i : Fin A.length, A.get i = ∑ l ∈ range (min A.length n), (σ l * W l i) • V l

theorem orthonormal_sub {m p k : ℕ} {W : ℕ → E m} (hk : k ≤ p)
    (h : Orthonormal ℝ (fun l : Fin p => W l)) : Orthonormal ℝ (fun l : Fin k => W l) :=
  h.comp (Fin.castLE hk) (Fin.castLE_injective hk)

theorem IsSVD.dec {A : List (E n)} {full : Bool} {usv} (h : IsSVD A full usv) :
    ∃ W σ V, Dec A W σ V ∧
      Orthonormal ℝ (fun l : Fin (if full then n else min A.length n) => V l) ∧
      usv.1 = (List.ofFn fun i : Fin A.length =>
        (List.range (if full then A.length else min A.length n)).map fun l => W l i) ∧
      usv.2.1 = (List.range (min A.length n)).map σ ∧
      usv.2.2 = (List.range (if full then n else min A.length n)).map fun l => arr (V l) := by
  obtain ⟨W, σ, V, h1, h2, h3, h4, h5, h6, h7, h8⟩ := h
  refine ⟨W, σ, V, ⟨orthonormal_sub ?_ h1, orthonormal_sub ?_ h2, h3, h4, h5⟩, h2, h6, h7, h8⟩
  · split <;> omega
  · split <;> omega

namespace Dec
variable {A : List (E n)} {W : ℕ → E A.length} {σ : ℕ → ℝ} {V : ℕ → E n}

theorem inner_V (h : Dec A W σ V) {l m : ℕ} (hl : l < min A.length n) (hm : m < min A.length n) :
    inner ℝ (V l) (V m) = if l = m then (1 : ℝ) else 0 := by
  have := orthonormal_iff_ite.mp h.hV ⟨l, hl⟩ ⟨m, hm⟩
  simpa using this

theorem inner_W (h : Dec A W σ V) {l m : ℕ} (hl : l < min A.length n) (hm : m < min A.length n) :
    inner ℝ (W l) (W m) = if l = m then (1 : ℝ) else 0 := by
  have := orthonormal_iff_ite.mp h.hW ⟨l, hl⟩ ⟨m, hm⟩
  simpa using this

theorem V_eq (h : Dec A W σ V) {l : ℕ} (hl : l < min A.length n) :
    σ l • V l = ∑ i : Fin A.length, W l i • A.get i := by
  have : ∀ i : Fin A.length, W l i • A.get i =
      ∑ m ∈ range (min A.length n), (σ m * (W l i * W m i)) • V m := by
    intro i
    rw [h.dec i, smul_sum]
    refine sum_congr rfl fun m _ => ?_
    rw [smul_smul]; congr 1; ring
  rw [sum_congr rfl fun i _ => this i, sum_comm]
  have h2 : ∀ m ∈ range (min A.length n),
      ∑ i : Fin A.length, (σ m * (W l i * W m i)) • V m = if m = l then σ l • V l else 0 := by
    intro m hm
    rw [← sum_smul, ← mul_sum]
    have := h.inner_W hl (mem_range.mp hm)
    rw [PiLp.inner_apply] at this
    have e : ∑ i : Fin A.length, W l i * W m i = if l = m then (1 : ℝ) else 0 := by
      rw [← this]; refine sum_congr rfl fun i _ => ?_
      simp [mul_comm]
    rw [e]
    by_cases hlm : l = m
    · subst hlm; simp
    · simp [hlm, Ne.symm hlm]
  rw [sum_congr rfl h2, sum_ite_eq' , if_pos (mem_range.mpr hl)]

theorem inner_get (h : Dec A W σ V) (i : Fin A.length) (x : E n) :
    inner ℝ (A.get i) x = ∑ l ∈ range (min A.length n), σ l * W l i * (inner ℝ (V l) x : ℝ) := by
  rw [h.dec i, sum_inner]
  refine sum_congr rfl fun l _ => ?_
  rw [real_inner_smul_left]

/-- The spread of the rows in direction `x`. -/
theorem sum_inner_sq (h : Dec A W σ V) (x : E n) :
    ∑ i : Fin A.length, (inner ℝ (A.get i) x : ℝ) ^ 2 =
      ∑ l ∈ range (min A.length n), σ l ^ 2 * (inner ℝ (V l) x : ℝ) ^ 2 := by
  have e : ∀ i : Fin A.length, (inner ℝ (A.get i) x : ℝ) ^ 2 =
      ∑ l ∈ range (min A.length n), (inner ℝ (V l) x : ℝ) * σ l * (W l i * (inner ℝ (A.get i) x : ℝ)) := by
    intro i
    conv_lhs => rw [pow_two, h.inner_get i x, sum_mul]
    rw [h.inner_get i x]
    refine sum_congr rfl fun l _ => ?_
    ring
  rw [sum_congr rfl fun i _ => e i, sum_comm]
  refine sum_congr rfl fun l hl => ?_
  rw [← mul_sum]
  have : ∑ i : Fin A.length, W l i * (inner ℝ (A.get i) x : ℝ) = σ l * (inner ℝ (V l) x : ℝ) := by
    rw [← real_inner_smul_left, h.V_eq (mem_range.mp hl), sum_inner]
    refine sum_congr rfl fun i _ => ?_
    rw [real_inner_smul_left]
  rw [this]; ring

/-- Bessel's inequality for the right singular vectors. -/
theorem bessel (h : Dec A W σ V) (x : E n) :
    ∑ l ∈ range (min A.length n), (inner ℝ (V l) x : ℝ) ^ 2 ≤ ‖x‖ ^ 2 := by
  have := h.hV.sum_inner_products_le (s := univ) x
  simp only [Real.norm_eq_abs, sq_abs] at this
  rwa [← Fin.sum_univ_eq_sum_range (fun l => (inner ℝ (V l) x : ℝ) ^ 2)]

/-- The number of singular values above `t`. -/
noncomputable def cnt (k : ℕ) (σ : ℕ → ℝ) (t : ℝ) : ℕ := by
  classical exact ((range k).filter fun l => t < σ l).card

theorem cnt_le (k : ℕ) (σ : ℕ → ℝ) (t : ℝ) : cnt k σ t ≤ k := by
  classical
  unfold cnt
  calc _ ≤ (range k).card := card_filter_le _ _
    _ = k := card_range k

theorem lt_cnt_iff {k : ℕ} {σ : ℕ → ℝ} (ha : Antitone σ) (t : ℝ) {l : ℕ} (hl : l < k) :
    l < cnt k σ t ↔ t < σ l := by
  classical
  unfold cnt
  constructor
  · intro h
    by_contra hc
    have : ((range k).filter fun l => t < σ l) ⊆ range l := by
      intro m hm
      rw [mem_filter, mem_range] at hm
      rw [mem_range]
      by_contra hml
      exact hc (lt_of_lt_of_le hm.2 (ha (not_lt.mp hml)))
    have := card_le_card this
    rw [card_range] at this
    omega
  · intro h
    have : range (l + 1) ⊆ (range k).filter fun l => t < σ l := by
      intro m hm
      rw [mem_range] at hm
      rw [mem_filter, mem_range]
      exact ⟨by omega, lt_of_lt_of_le h (ha (by omega))⟩
    have := card_le_card this
    rw [card_range] at this
    omega

theorem cnt_anti (k : ℕ) (σ : ℕ → ℝ) {s t : ℝ} (h : s ≤ t) : cnt k σ t ≤ cnt k σ s := by
  classical
  unfold cnt
  apply card_le_card
  intro l hl
  rw [mem_filter] at hl ⊢
  exact ⟨hl.1, lt_of_le_of_lt h hl.2⟩

/-- The span of the first `r` right singular vectors. -/
theorem finrank_span_V (h : Dec A W σ V) {r : ℕ} (hr : r ≤ min A.length n) :
    Module.finrank ℝ (Submodule.span ℝ (Set.range fun l : Fin r => V l)) = r := by
  have := (orthonormal_sub hr h.hV).linearIndependent
  rw [finrank_span_eq_card this, Fintype.card_fin]

theorem mem_span_V (h : Dec A W σ V) {r : ℕ} (hr : r ≤ min A.length n) {x : E n}
    (hx : x ∈ Submodule.span ℝ (Set.range fun l : Fin r => V l)) :
    (∀ l, r ≤ l → l < min A.length n → inner ℝ (V l) x = (0 : ℝ)) ∧
      ∑ l ∈ range r, (inner ℝ (V l) x : ℝ) ^ 2 = ‖x‖ ^ 2 := by
  obtain ⟨c, rfl⟩ := (Submodule.mem_span_range_iff_exists_fun ℝ).mp hx
  have hin : ∀ l, l < min A.length n → inner ℝ (V l) (∑ i : Fin r, c i • V i) =
      if hl : l < r then c ⟨l, hl⟩ else (0 : ℝ) := by
    intro l hl
    rw [inner_sum]
    have : ∀ i : Fin r, inner ℝ (V l) (c i • V i) = if l = i then c i else (0 : ℝ) := by
      intro i
      rw [real_inner_smul_right, h.inner_V hl (by omega)]; split <;> simp
    rw [sum_congr rfl fun i _ => this i]
    split
    · next hlr =>
      rw [sum_eq_single ⟨l, hlr⟩]
      · simp
      · intro b _ hb
        rw [if_neg]; intro e; apply hb; ext; exact e.symm
      · simp
    · next hlr =>
      apply sum_eq_zero; intro i _; rw [if_neg]; omega
  refine ⟨fun l h1 h2 => ?_, ?_⟩
  · rw [hin l h2, dif_neg (by omega)]
  · rw [← Fin.sum_univ_eq_sum_range (fun l => (inner ℝ (V l) (∑ i : Fin r, c i • V i) : ℝ) ^ 2)]
    rw [← real_inner_self_eq_norm_sq, sum_inner]
    refine sum_congr rfl fun i _ => ?_
    rw [real_inner_smul_left, hin i (by omega), dif_pos i.2]
    ring

/-- Courant - Fischer: at least `r` singular values are above `t` iff there is an `r`-dimensional
subspace in every direction of which the rows spread more than `t`. -/
theorem le_cnt_iff (h : Dec A W σ V) {t : ℝ} (ht : 0 ≤ t) (r : ℕ) :
    r ≤ cnt (min A.length n) σ t ↔ ∃ U : Submodule ℝ (E n), Module.finrank ℝ U = r ∧
      ∀ x ∈ U, x ≠ 0 → t ^ 2 * ‖x‖ ^ 2 < ∑ i : Fin A.length, (inner ℝ (A.get i) x : ℝ) ^ 2 := by
  set k := min A.length n with hk
  constructor
  · intro hr
    have hrk : r ≤ k := hr.trans (cnt_le _ _ _)
    refine ⟨_, h.finrank_span_V hrk, fun x hx hx0 => ?_⟩
    obtain ⟨h1, h2⟩ := h.mem_span_V hrk hx
    rw [h.sum_inner_sq, ← hk]
    have hsub : range r ⊆ range k := range_subset_range.mpr hrk
    have hle : ∑ l ∈ range r, σ l ^ 2 * (inner ℝ (V l) x : ℝ) ^ 2 ≤
        ∑ l ∈ range k, σ l ^ 2 * (inner ℝ (V l) x : ℝ) ^ 2 :=
      sum_le_sum_of_subset_of_nonneg hsub fun _ _ _ => by positivity
    refine lt_of_lt_of_le ?_ hle
    rw [← h2, mul_sum]
    have hσ : ∀ l ∈ range r, t ^ 2 < σ l ^ 2 := by
      intro l hl
      rw [mem_range] at hl
      have := (lt_cnt_iff h.anti t (lt_of_lt_of_le hl hrk)).mp (lt_of_lt_of_le hl hr)
      exact pow_lt_pow_left₀ this ht two_ne_zero
    apply sum_lt_sum
    · intro l hl
      exact mul_le_mul_of_nonneg_right (hσ l hl).le (sq_nonneg _)
    · by_contra hc
      push Not at hc
      have : ∑ l ∈ range r, (inner ℝ (V l) x : ℝ) ^ 2 = 0 := by
        apply sum_eq_zero
        intro l hl
        have := hc l hl
        by_contra hne
        have hp : 0 < (inner ℝ (V l) x : ℝ) ^ 2 := lt_of_le_of_ne (sq_nonneg _) (Ne.symm hne)
        have := hσ l hl
        nlinarith
      rw [h2] at this
      exact hx0 (norm_eq_zero.mp (pow_eq_zero_iff two_ne_zero |>.mp this))
  · rintro ⟨U, hU, hUx⟩
    by_contra hlt
    push Not at hlt
    set c := cnt k σ t with hc
    have hck : c ≤ k := cnt_le _ _ _
    set S := Submodule.span ℝ (Set.range fun l : Fin c => V l) with hS
    have hSr : Module.finrank ℝ S = c := h.finrank_span_V hck
    -- U meets the orthogonal complement of S
    have hex : ∃ x ∈ U, x ∈ Sᗮ ∧ x ≠ 0 := by
      by_contra hno
      push Not at hno
      have hdisj : Disjoint U Sᗮ := by
        rw [Submodule.disjoint_def]; exact hno
      have := Submodule.finrank_add_finrank_le_of_disjoint hdisj
      have h3 := Submodule.finrank_add_finrank_orthogonal S
      omega
    obtain ⟨x, hxU, hxS, hx0⟩ := hex
    have := hUx x hxU hx0
    rw [h.sum_inner_sq, ← hk] at this
    have hz : ∀ l, l < c → inner ℝ (V l) x = (0 : ℝ) := by
      intro l hl
      exact (Submodule.mem_orthogonal S x).mp hxS _ (Submodule.subset_span ⟨⟨l, hl⟩, rfl⟩)
    have hbound : ∑ l ∈ range k, σ l ^ 2 * (inner ℝ (V l) x : ℝ) ^ 2 ≤
        ∑ l ∈ range k, t ^ 2 * (inner ℝ (V l) x : ℝ) ^ 2 := by
      apply sum_le_sum
      intro l hl
      rw [mem_range] at hl
      by_cases hlc : l < c
      · rw [hz l hlc]; simp
      · have : σ l ≤ t := by
          by_contra hcon
          exact hlc ((lt_cnt_iff h.anti t hl).mpr (not_le.mp hcon))
        exact mul_le_mul_of_nonneg_right (pow_le_pow_left₀ (h.nonneg l) this 2) (sq_nonneg _)
    rw [← mul_sum] at hbound
    have := h.bessel x
    have := mul_le_mul_of_nonneg_left this (sq_nonneg t)
    linarith

/-- The rank is the number of non-zero singular values. -/
theorem cnt_zero (h : Dec A W σ V) : cnt (min A.length n) σ 0 =
    Module.finrank ℝ (Submodule.span ℝ {x | x ∈ A}) := by
  have hmem : ∀ i : Fin A.length, A.get i ∈ Submodule.span ℝ {x | x ∈ A} :=
    fun i => Submodule.subset_span (List.get_mem A i)
  apply le_antisymm
  · obtain ⟨U, hU, hx⟩ := (h.le_cnt_iff le_rfl _).mp (le_refl (cnt (min A.length n) σ 0))
    set c := cnt (min A.length n) σ 0 with hc
    have hck : c ≤ min A.length n := cnt_le _ _ _
    rw [← h.finrank_span_V hck]
    apply Submodule.finrank_mono
    rw [Submodule.span_le]
    rintro _ ⟨l, rfl⟩
    have hl : (l : ℕ) < min A.length n := lt_of_lt_of_le l.2 hck
    have hpos := (lt_cnt_iff h.anti 0 hl).mp l.2
    have : V l = (σ l)⁻¹ • ∑ i : Fin A.length, W l i • A.get i := by
      rw [← h.V_eq hl, smul_smul, inv_mul_cancel₀ hpos.ne', one_smul]
    show V l ∈ Submodule.span ℝ {x | x ∈ A}
    rw [this]
    exact Submodule.smul_mem _ _ (Submodule.sum_mem _ fun i _ => Submodule.smul_mem _ _ (hmem i))
  · rw [h.le_cnt_iff le_rfl]
    refine ⟨_, rfl, fun x hx hx0 => ?_⟩
    have hnn : 0 ≤ ∑ i : Fin A.length, (inner ℝ (A.get i) x : ℝ) ^ 2 := sum_nonneg fun _ _ => sq_nonneg _
    rcases hnn.lt_or_eq with h1 | h1
    · simpa using h1
    · exfalso
      have hz := (sum_eq_zero_iff_of_nonneg fun i _ => sq_nonneg _).mp h1.symm
      have : x ∈ (Submodule.span ℝ {x | x ∈ A})ᗮ := by
        rw [Submodule.mem_orthogonal]
        intro u hu
        induction hu using Submodule.span_induction with
        | mem u hu =>
          obtain ⟨i, hi⟩ := List.get_of_mem hu
          rw [← hi]
          exact pow_eq_zero_iff two_ne_zero |>.mp (hz i (mem_univ _))
        | zero => simp
        | add u v _ _ h1 h2 => rw [inner_add_left, h1, h2, add_zero]
        | smul a u _ h1 => rw [real_inner_smul_left, h1, mul_zero]
      have := (Submodule.mem_orthogonal _ _).mp this x hx
      rw [real_inner_self_eq_norm_sq] at this
      exact hx0 (norm_eq_zero.mp (pow_eq_zero_iff two_ne_zero |>.mp this))

end Dec

theorem countP_range_map (k : ℕ) (σ : ℕ → ℝ) (t : ℝ) [DecidablePred fun s : ℝ => t < s] :
    ((List.range k).map σ).countP (fun s => decide (t < s)) = Dec.cnt k σ t := by
  classical
  unfold Dec.cnt
  rw [List.countP_map, List.countP_eq_length_filter]
  rw [← List.toFinset_card_of_nodup (List.Nodup.filter _ List.nodup_range)]
  congr 1
  ext l
  simp

/-- The tolerance `matrix_rank` uses. -/
theorem matrixRank_dec [NumpyExt ℝ] [LawfulNumpy] {A : List (E n)} (hA : A ≠ []) (hn : n ≠ 0)
    (tol : Option ℝ) : ∃ W σ V, Dec A W σ V ∧
      NumpyExt.matrixRank tol (rows A) = Dec.cnt (min A.length n) σ
        (tol.getD (σ 0 * (max A.length n : ℕ) * (2 : ℝ)⁻¹ ^ 52)) := by
  obtain ⟨usv, h1, h2⟩ := LawfulNumpy.matrixRank A tol hA hn
  obtain ⟨W, σ, V, hd, -, -, hS, -⟩ := h1.dec
  refine ⟨W, σ, V, hd, ?_⟩
  rw [h2, hS, countP_range_map]
  congr 2
  unfold rankTol
  have : min A.length n ≠ 0 := by
    have : A.length ≠ 0 := fun h => hA (List.length_eq_zero_iff.mp h)
    omega
  obtain ⟨k, hk⟩ := Nat.exists_eq_succ_of_ne_zero this
  rw [hk, List.range_succ_eq_map]
  simp

end SkSpatial
