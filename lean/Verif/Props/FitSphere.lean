import Verif.Spec.Geometry
import Verif.Props.BestFit
import Verif.Props.Circle
/-! # C47: `Circle.best_fit` and `Sphere.best_fit` -/

namespace SkSpatial
open Finset

variable {n : ℕ}

/-- A center and the constant `k = r² - |c|²`, as one vector. -/
noncomputable def join (c : E n) (k : ℝ) : E (n + 1) := WithLp.toLp 2 (Fin.snoc (fun i => c i) k : Fin (n + 1) → ℝ)

theorem inner_designRow_join (p c : E n) (k : ℝ) : (inner ℝ (designRow p) (join c k) : ℝ) = 2 * inner ℝ p c + k := by
  simp only [designRow, join, PiLp.inner_apply, Fin.sum_univ_castSucc]
  simp [mul_sum]
  refine sum_congr rfl fun i _ => by ring

theorem exists_join (x : E (n + 1)) : ∃ c k, x = join c k := by
  refine ⟨WithLp.toLp 2 fun i => x i.castSucc, x (Fin.last n), ?_⟩
  ext i
  refine Fin.lastCases ?_ (fun j => ?_) i <;> simp [join]

theorem join_inj {c c' : E n} {k k' : ℝ} : join c k = join c' k' ↔ c = c' ∧ k = k' := by
  constructor
  · intro h
    have h1 : ∀ i : Fin (n + 1), join c k i = join c' k' i := fun i => by rw [h]
    constructor
    · ext i; simpa [join] using h1 i.castSucc
    · simpa [join] using h1 (Fin.last n)
  · rintro ⟨rfl, rfl⟩; rfl

theorem arr_join (c : E n) (k : ℝ) : arr (join c k) = arr c ++ [k] := by
  rw [arr, arr, List.ofFn_succ_last]
  simp [join]

theorem fitMatrix_rows (P : List (E n)) : Sphere.fitMatrix (rows P) = rows (P.map designRow) := by
  simp only [Sphere.fitMatrix, rows, List.map_map]
  refine List.map_congr_left fun p _ => ?_
  simp only [Function.comp]
  rw [smul_arr, arr, arr, List.ofFn_succ_last]
  simp [designRow]

theorem sumL_sq_arr (p : E n) : sumL ((arr p).map sq) = ‖p‖ ^ 2 := by
  rw [sumL_real, EuclideanSpace.norm_sq_eq, arr, List.map_ofFn, List.sum_ofFn]
  simp

theorem affineRank_lt_length [NumpyExt ℝ] [LawfulNumpy] [NeZero n] {P : List (E n)} (hP : P ≠ []) {r : ℕ}
    (h : Pts.affineRank none (rows P) = .ok r) : r + 1 ≤ P.length := by
  obtain ⟨r', hr, hle⟩ := (C21_affine_rank_laws hP).1 none (by simp)
  rw [h] at hr; cases hr
  have hrange : {x | x ∈ P} = Set.range P.get := by
    ext x; simp [List.mem_iff_get]
  have hpos := List.length_pos_iff.mpr hP
  obtain ⟨m, hm⟩ := Nat.exists_eq_succ_of_ne_zero hpos.ne'
  have := finrank_vectorSpan_range_le ℝ P.get (n := m) (by simp [hm])
  rw [hrange] at hle
  omega

/-- The normal equations. -/
theorem fit_normal [NumpyExt ℝ] [LawfulNumpy] {P : List (E n)} (hlen : n + 1 ≤ P.length) (hw : WellConditioned P) :
    ∃ c k, NumpyExt.lstsq (Sphere.fitMatrix (rows P)) (Sphere.fitRhs (rows P)) = arr (join c k) ∧
      ∀ y : E (n + 1), (P.map fun p => (inner ℝ (designRow p) y : ℝ) * (‖p‖ ^ 2 - 2 * inner ℝ p c - k)).sum = 0 := by
  obtain ⟨A, hA⟩ : ∃ A, A = P.map designRow := ⟨_, rfl⟩
  have hAl : A.length = P.length := by simp [hA]
  have hAne : A ≠ [] := by rintro rfl; simp at hAl; omega
  obtain ⟨b, hb⟩ : ∃ b : E A.length, b = WithLp.toLp 2 fun i : Fin A.length => ‖P.get (i.cast hAl)‖ ^ 2 := ⟨_, rfl⟩
  have hbarr : Sphere.fitRhs (rows P) = arr b := by
    simp only [Sphere.fitRhs, rows, List.map_map, Function.comp_def, sumL_sq_arr]
    apply List.ext_getElem
    · simp [hAl]
    · intro i h1 h2
      simp [arr, hb]
  obtain ⟨W, σ, V, h1, h2, h3, h4, h5, h6⟩ := LawfulNumpy.lstsq A b hAne (by omega)
  have hd : Dec A W σ V := ⟨h1, h2, h3, h4, h5⟩
  have hmin : min A.length (n + 1) = n + 1 := by omega
  have hkeep : (Finset.range (min A.length (n + 1))).filter
      (fun l => (2 : ℝ)⁻¹ ^ 52 * (max A.length (n + 1) : ℕ) * σ 0 < σ l) = Finset.range (min A.length (n + 1)) := by
    apply Finset.filter_true_of_mem
    intro l hl
    have hl' := mem_range.mp hl
    have hV : ∀ m, m < min A.length (n + 1) →
        (P.map fun p => (inner ℝ (designRow p) (V m) : ℝ) ^ 2).sum = σ m ^ 2 := by
      intro m hm
      have e : (P.map fun p => (inner ℝ (designRow p) (V m) : ℝ) ^ 2) =
          A.map fun a => (inner ℝ a (V m) : ℝ) ^ 2 := by rw [hA, List.map_map]; rfl
      rw [e, sum_map_get A, hd.sum_inner_sq, Finset.sum_eq_single m]
      · rw [hd.inner_V hm hm]; simp
      · intro l hl hlm; rw [hd.inner_V (mem_range.mp hl) hm, if_neg hlm]; simp
      · intro h; exact absurd (mem_range.mpr hm) h
    have hn : ∀ m, m < min A.length (n + 1) → ‖V m‖ = 1 := fun m hm => h2.1 ⟨m, hm⟩
    have h0 : 0 < min A.length (n + 1) := by omega
    have := hw (V l) (V 0) (hn l hl') (hn 0 h0)
    rw [hV l hl', hV 0 h0, ← mul_pow, ← hAl] at this
    exact lt_of_pow_lt_pow_left₀ 2 (h3 l) this
  rw [hkeep] at h6
  obtain ⟨x, hx⟩ : ∃ x, x = ∑ l ∈ range (min A.length (n + 1)), ((inner ℝ (W l) b : ℝ) / σ l) • V l := ⟨_, rfl⟩
  rw [← hx] at h6
  obtain ⟨c, k, hck⟩ := exists_join x
  refine ⟨c, k, ?_, ?_⟩
  · rw [fitMatrix_rows, ← hA, hbarr, h6, hck]
  · intro y
    have hpos : ∀ l, l < min A.length (n + 1) → σ l ≠ 0 := by
      intro l hl
      have hm := hkeep.symm ▸ mem_range.mpr hl
      rw [mem_filter] at hm
      have h0 := h3 0
      have : (0 : ℝ) ≤ (2 : ℝ)⁻¹ ^ 52 * (max A.length (n + 1) : ℕ) * σ 0 := by positivity
      exact (lt_of_le_of_lt this hm.2).ne'
    have hWx : ∀ l, l < min A.length (n + 1) →
        ∑ i : Fin A.length, W l i * (b i - (inner ℝ (A.get i) x : ℝ)) = 0 := by
      intro l hl
      have e1 : ∑ i : Fin A.length, W l i * b i = inner ℝ (W l) b := by
        rw [PiLp.inner_apply]; refine sum_congr rfl fun i _ => ?_
        simp [mul_comm]
      have e2 : ∑ i : Fin A.length, W l i * (inner ℝ (A.get i) x : ℝ) = σ l * (inner ℝ (V l) x : ℝ) := by
        rw [← real_inner_smul_left, hd.V_eq hl, sum_inner]
        refine sum_congr rfl fun i _ => ?_
        rw [real_inner_smul_left]
      have e3 : (inner ℝ (V l) x : ℝ) = (inner ℝ (W l) b : ℝ) / σ l := by
        rw [hx, inner_sum, Finset.sum_eq_single l]
        · rw [real_inner_smul_right, hd.inner_V hl hl]; simp
        · intro m hm hml
          rw [real_inner_smul_right, hd.inner_V hl (mem_range.mp hm), if_neg (Ne.symm hml)]; simp
        · intro h; exact absurd (mem_range.mpr hl) h
      simp only [mul_sub, sum_sub_distrib]
      rw [e1, e2, e3, mul_div_cancel₀ _ (hpos l hl), sub_self]
    have e : (P.map fun p => (inner ℝ (designRow p) y : ℝ) * (‖p‖ ^ 2 - 2 * inner ℝ p c - k)).sum =
        ∑ i : Fin A.length, (inner ℝ (A.get i) y : ℝ) * (b i - (inner ℝ (A.get i) x : ℝ)) := by
      rw [sum_map_get P]
      refine Fintype.sum_equiv (finCongr hAl.symm) _ _ fun i => ?_
      have e1 : A.get (finCongr hAl.symm i) = designRow (P.get i) := by simp [hA]
      have e2 : b (finCongr hAl.symm i) = ‖P.get i‖ ^ 2 := by rw [hb]; simp
      rw [e1, e2, hck, inner_designRow_join]; ring
    rw [e]
    have : ∀ i : Fin A.length, (inner ℝ (A.get i) y : ℝ) * (b i - (inner ℝ (A.get i) x : ℝ)) =
        ∑ l ∈ range (min A.length (n + 1)), (σ l * (inner ℝ (V l) y : ℝ)) * (W l i * (b i - (inner ℝ (A.get i) x : ℝ))) := by
      intro i
      conv_lhs => rw [hd.inner_get i y, sum_mul]
      refine sum_congr rfl fun l _ => ?_
      ring
    rw [sum_congr rfl fun i _ => this i, sum_comm]
    apply Finset.sum_eq_zero
    intro l hl
    rw [← mul_sum, hWx l (mem_range.mp hl), mul_zero]

theorem residual_eq (p c : E n) (r : ℝ) : dist p c ^ 2 - r ^ 2 = ‖p‖ ^ 2 - 2 * inner ℝ p c - (r ^ 2 - ‖c‖ ^ 2) := by
  rw [dist_eq_norm, norm_sub_sq_real]; ring

theorem list_sum_pos {α : Type} {L : List α} {f : α → ℝ} (h0 : ∀ x ∈ L, 0 ≤ f x) {x : α} (hx : x ∈ L) (hpos : 0 < f x) :
    0 < (L.map f).sum := by
  induction L with
  | nil => simp at hx
  | cons a L ih =>
    have hL : 0 ≤ (L.map f).sum := List.sum_nonneg (by
      intro y hy; obtain ⟨z, hz, rfl⟩ := List.mem_map.mp hy; exact h0 z (by simp [hz]))
    rw [List.map_cons, List.sum_cons]
    rcases List.mem_cons.mp hx with rfl | hx
    · linarith
    · have := ih (fun y hy => h0 y (by simp [hy])) hx
      have := h0 a (by simp)
      linarith

/-- The common part of the circle and the sphere fit. -/
theorem fit_props {P : List (E n)} (hne : ∃ p ∈ P, ∃ q ∈ P, p ≠ q) (hw : WellConditioned P) {c : E n} {k : ℝ}
    (hN : ∀ y : E (n + 1), (P.map fun p => (inner ℝ (designRow p) y : ℝ) * (‖p‖ ^ 2 - 2 * inner ℝ p c - k)).sum = 0) :
    0 < ‖c‖ ^ 2 + k ∧ P.length * (‖c‖ ^ 2 + k) = (P.map fun p => dist p c ^ 2).sum ∧
    (∀ (c' : E n) (r' : ℝ), (P.map fun p => (dist p c ^ 2 - (‖c‖ ^ 2 + k)) ^ 2).sum ≤
      (P.map fun p => (dist p c' ^ 2 - r' ^ 2) ^ 2).sum) ∧
    (∀ (c' : E n) (r' : ℝ), (P.map fun p => (dist p c' ^ 2 - r' ^ 2) ^ 2).sum ≤
      (P.map fun p => (dist p c ^ 2 - (‖c‖ ^ 2 + k)) ^ 2).sum → c' = c ∧ r' ^ 2 = ‖c‖ ^ 2 + k) := by
  have h1 : P.length * (‖c‖ ^ 2 + k) = (P.map fun p => dist p c ^ 2).sum := by
    have := hN (join 0 1)
    simp only [inner_designRow_join, inner_zero_right, mul_zero, zero_add, one_mul] at this
    have e : ∀ Q : List (E n), (Q.map fun p => ‖p‖ ^ 2 - 2 * (inner ℝ p c : ℝ) - k).sum =
        (Q.map fun p => dist p c ^ 2).sum - Q.length * (‖c‖ ^ 2 + k) := by
      intro Q
      induction Q with
      | nil => simp
      | cons p Q ih =>
        simp only [List.map_cons, List.sum_cons, ih, List.length_cons, dist_eq_norm, norm_sub_sq_real]
        push_cast; ring
    rw [e] at this; linarith
  have hexp : ∀ (c' : E n) (k' : ℝ), (P.map fun p => (‖p‖ ^ 2 - 2 * (inner ℝ p c' : ℝ) - k') ^ 2).sum =
      (P.map fun p => (‖p‖ ^ 2 - 2 * (inner ℝ p c : ℝ) - k) ^ 2).sum +
        (P.map fun p => (inner ℝ (designRow p) (join (c' - c) (k' - k)) : ℝ) ^ 2).sum := by
    intro c' k'
    have h0 := hN (join (c' - c) (k' - k))
    have e : ∀ Q : List (E n), (Q.map fun p => (‖p‖ ^ 2 - 2 * (inner ℝ p c' : ℝ) - k') ^ 2).sum =
        (Q.map fun p => (‖p‖ ^ 2 - 2 * (inner ℝ p c : ℝ) - k) ^ 2).sum +
        (Q.map fun p => (inner ℝ (designRow p) (join (c' - c) (k' - k)) : ℝ) ^ 2).sum -
        2 * (Q.map fun p => (inner ℝ (designRow p) (join (c' - c) (k' - k)) : ℝ) *
          (‖p‖ ^ 2 - 2 * inner ℝ p c - k)).sum := by
      intro Q
      induction Q with
      | nil => simp
      | cons p Q ih =>
        simp only [List.map_cons, List.sum_cons, ih, inner_designRow_join, inner_sub_right]
        ring
    rw [e, h0]; ring
  have hres : ∀ (c' : E n) (s : ℝ), (P.map fun p => (dist p c' ^ 2 - s) ^ 2) =
      P.map fun p => (‖p‖ ^ 2 - 2 * (inner ℝ p c' : ℝ) - (s - ‖c'‖ ^ 2)) ^ 2 := by
    intro c' s
    refine List.map_congr_left fun p _ => ?_
    rw [dist_eq_norm, norm_sub_sq_real]; ring
  have hk : ‖c‖ ^ 2 + k - ‖c‖ ^ 2 = k := by ring
  refine ⟨?_, h1, ?_, ?_⟩
  · obtain ⟨p, hp, q, hq, hpq⟩ := hne
    have hl : (0 : ℝ) < P.length := by exact_mod_cast List.length_pos_of_mem hp
    have hs : 0 < (P.map fun p => dist p c ^ 2).sum := by
      by_cases hpc : p = c
      · have : 0 < dist q c := dist_pos.mpr (fun h => hpq (hpc.trans h.symm))
        exact list_sum_pos (fun _ _ => by positivity) hq (by positivity)
      · have : 0 < dist p c := dist_pos.mpr hpc
        exact list_sum_pos (fun _ _ => by positivity) hp (by positivity)
    rw [← h1] at hs
    exact pos_of_mul_pos_right hs hl.le
  · intro c' r'
    rw [hres c, hres c', hk, hexp c']
    have : 0 ≤ (P.map fun p => (inner ℝ (designRow p) (join (c' - c) (r' ^ 2 - ‖c'‖ ^ 2 - k)) : ℝ) ^ 2).sum :=
      List.sum_nonneg (by
        intro y hy; obtain ⟨z, hz, rfl⟩ := List.mem_map.mp hy; positivity)
    linarith
  · intro c' r' hle
    rw [hres c, hres c', hk, hexp c'] at hle
    obtain ⟨z, hz⟩ : ∃ z, z = join (c' - c) (r' ^ 2 - ‖c'‖ ^ 2 - k) := ⟨_, rfl⟩
    rw [← hz] at hle
    have hz0 : z = 0 := by
      by_contra hne'
      have hnz : ‖z‖ ≠ 0 := norm_ne_zero_iff.mpr hne'
      have hu : ‖‖z‖⁻¹ • z‖ = 1 := by rw [norm_smul, norm_inv, norm_norm, inv_mul_cancel₀ hnz]
      have h2 := hw _ _ hu hu
      have h3 : (P.map fun p => (inner ℝ (designRow p) (‖z‖⁻¹ • z) : ℝ) ^ 2).sum =
          (‖z‖⁻¹) ^ 2 * (P.map fun p => (inner ℝ (designRow p) z : ℝ) ^ 2).sum := by
        rw [← List.sum_map_mul_left]
        congr 1
        refine List.map_congr_left fun p _ => ?_
        rw [real_inner_smul_right]; ring
      have h4 : 0 ≤ (P.map fun p => (inner ℝ (designRow p) (‖z‖⁻¹ • z) : ℝ) ^ 2).sum :=
        List.sum_nonneg (by
          intro y hy; obtain ⟨z, hz, rfl⟩ := List.mem_map.mp hy; positivity)
      have h5 : 0 < (P.map fun p => (inner ℝ (designRow p) (‖z‖⁻¹ • z) : ℝ) ^ 2).sum :=
        lt_of_le_of_lt (by positivity) h2
      rw [h3] at h5
      have := pos_of_mul_pos_right h5 (by positivity)
      linarith
    have hj : join (c' - c) (r' ^ 2 - ‖c'‖ ^ 2 - k) = join 0 0 := by
      rw [← hz, hz0]
      ext i
      refine Fin.lastCases ?_ (fun j => ?_) i <;> simp [join]
    obtain ⟨e1, e2⟩ := join_inj.mp hj
    have e3 := sub_eq_zero.mp e1
    refine ⟨e3, ?_⟩
    rw [e3] at e2; linarith

theorem exists_ne_of_rank [NumpyExt ℝ] [LawfulNumpy] [NeZero n] {P : List (E n)} (hP : P ≠ []) {r : ℕ}
    (h : Pts.affineRank none (rows P) = .ok r) (hr : 0 < r) : ∃ p ∈ P, ∃ q ∈ P, p ≠ q := by
  by_contra hc
  push Not at hc
  obtain ⟨p, hp⟩ := List.exists_mem_of_ne_nil P hP
  obtain ⟨r', hr', hle⟩ := (C21_affine_rank_laws hP).1 none (by simp)
  rw [h] at hr'; cases hr'
  have : {x | x ∈ P} = {p} := by
    ext x; constructor
    · intro hx; exact hc x hx p hp
    · rintro rfl; exact hp
  rw [this, vectorSpan_singleton] at hle
  simp at hle
  omega

/-- C47: `Circle.best_fit`.  The points are rejected iff there are fewer than three or their affine rank is
not 2 (in particular if they are collinear).  Otherwise, if the linear system is well conditioned, the
constructor does not raise: the squared radius is the mean squared distance to the center, hence positive;
the circle is the unique minimiser of `Σ (|p - c|² - r²)²`; and if the points lie on a circle it is that
circle. -/
theorem C47_circle_best_fit [NumpyExt ℝ] [LawfulNumpy] {P : List (E 2)} (hP : P ≠ []) :
    (P.length < 3 → ∃ msg, Circle.bestFit (rows P) = .error (.valueError msg)) ∧
    (Pts.affineRank none (rows P) ≠ .ok 2 → ∃ msg, Circle.bestFit (rows P) = .error (.valueError msg)) ∧
    (Collinear ℝ {x | x ∈ P} → ∃ msg, Circle.bestFit (rows P) = .error (.valueError msg)) ∧
    (Pts.affineRank none (rows P) = .ok 2 → WellConditioned P → ∃ (C : Circle ℝ) (c : E 2) (r : ℝ),
      Circle.bestFit (rows P) = .ok C ∧ Circle.new (arr c) r = .ok C ∧ 0 < r ∧
      r ^ 2 = (P.map fun p => dist p c ^ 2).sum / P.length ∧
      (∀ c' r', (P.map fun p => (dist p c ^ 2 - r ^ 2) ^ 2).sum ≤ (P.map fun p => (dist p c' ^ 2 - r' ^ 2) ^ 2).sum) ∧
      (∀ c' r', 0 < r' → (P.map fun p => (dist p c' ^ 2 - r' ^ 2) ^ 2).sum ≤
        (P.map fun p => (dist p c ^ 2 - r ^ 2) ^ 2).sum → c' = c ∧ r' = r) ∧
      (∀ c' r', 0 < r' → (∀ p ∈ P, p ∈ Metric.sphere c' r') → c' = c ∧ r' = r)) := by
  have hlen3 : P.length < 3 → ∃ msg, Circle.bestFit (rows P) = .error (.valueError msg) := by
    intro h
    exact ⟨_, by simp [Circle.bestFit, newPoints_rows hP, rowDim_rows hP, h]; rfl⟩
  have hrank : Pts.affineRank none (rows P) ≠ .ok 2 →
      ∃ msg, Circle.bestFit (rows P) = .error (.valueError msg) := by
    intro h
    by_cases h3 : P.length < 3
    · exact hlen3 h3
    obtain ⟨r, hr, -⟩ := (C21_affine_rank_laws hP).1 none (by simp)
    have h2 : r ≠ 2 := by rintro rfl; exact h hr
    exact ⟨_, by simp [Circle.bestFit, newPoints_rows hP, rowDim_rows hP, h3, hr, h2]; rfl⟩
  refine ⟨hlen3, hrank, ?_, ?_⟩
  · intro hcol
    apply hrank
    intro h
    obtain ⟨r, hr, hle⟩ := (C21_affine_rank_laws hP).1 none (by simp)
    rw [h] at hr; cases hr
    have := collinear_iff_finrank_le_one.mp hcol
    omega
  · intro hr hw
    have hl := affineRank_lt_length hP hr
    obtain ⟨c, k, hls, hN⟩ := fit_normal (n := 2) (by omega) hw
    obtain ⟨hpos, hmean, hmin, huniq⟩ := fit_props (exists_ne_of_rank hP hr (by omega)) hw hN
    have hs : Real.sqrt (‖c‖ ^ 2 + k) ^ 2 = ‖c‖ ^ 2 + k := Real.sq_sqrt hpos.le
    have hsp : 0 < Real.sqrt (‖c‖ ^ 2 + k) := Real.sqrt_pos.mpr hpos
    have h3' : ¬ (rows P).length < 3 := by simp [rows]; omega
    have hval : Circle.bestFit (rows P) = Circle.new (arr c) (Real.sqrt (‖c‖ ^ 2 + k)) := by
      simp only [Circle.bestFit, newPoints_rows hP, rowDim_rows hP, ok_bind, h3', hr, hls, arr_join, arr2, norm_sq2]
      simp
      congr 2; ring
    have hl' : (P.length : ℝ) ≠ 0 := by rw [Nat.cast_ne_zero]; omega
    refine ⟨_, c, _, hval.trans (Circle.new_arr c hsp), Circle.new_arr c hsp, hsp, ?_, ?_, ?_, ?_⟩
    · rw [hs, ← hmean]; field_simp
    · intro c' r'; rw [hs]; exact hmin c' r'
    · intro c' r' hr' hle
      rw [hs] at hle
      obtain ⟨e1, e2⟩ := huniq c' r' hle
      exact ⟨e1, by rw [← e2, Real.sqrt_sq hr'.le]⟩
    · intro c' r' hr' hon
      have h0 : (P.map fun p => (dist p c' ^ 2 - r' ^ 2) ^ 2).sum = 0 := by
        rw [List.map_congr_left (g := fun _ => (0 : ℝ)) (by
          intro p hp
          have : dist p c' = r' := hon p hp
          rw [this]; ring)]
        simp
      have h1 : 0 ≤ (P.map fun p => (dist p c ^ 2 - (‖c‖ ^ 2 + k)) ^ 2).sum := List.sum_nonneg (by
          intro y hy; obtain ⟨z, hz, rfl⟩ := List.mem_map.mp hy; positivity)
      obtain ⟨e1, e2⟩ := huniq c' r' (by rw [h0]; exact h1)
      exact ⟨e1, by rw [← e2, Real.sqrt_sq hr'.le]⟩

/-- C47: `Sphere.best_fit`, likewise. -/
theorem C47_sphere_best_fit [NumpyExt ℝ] [LawfulNumpy] {P : List (E 3)} (hP : P ≠ []) :
    (P.length < 4 → ∃ msg, Sphere.bestFit (rows P) = .error (.valueError msg)) ∧
    (Pts.affineRank none (rows P) ≠ .ok 3 → ∃ msg, Sphere.bestFit (rows P) = .error (.valueError msg)) ∧
    (Coplanar ℝ {x | x ∈ P} → ∃ msg, Sphere.bestFit (rows P) = .error (.valueError msg)) ∧
    (Pts.affineRank none (rows P) = .ok 3 → WellConditioned P → ∃ (C : Sphere ℝ) (c : E 3) (r : ℝ),
      Sphere.bestFit (rows P) = .ok C ∧ Sphere.new (arr c) r = .ok C ∧ 0 < r ∧
      r ^ 2 = (P.map fun p => dist p c ^ 2).sum / P.length ∧
      (∀ c' r', (P.map fun p => (dist p c ^ 2 - r ^ 2) ^ 2).sum ≤ (P.map fun p => (dist p c' ^ 2 - r' ^ 2) ^ 2).sum) ∧
      (∀ c' r', 0 < r' → (P.map fun p => (dist p c' ^ 2 - r' ^ 2) ^ 2).sum ≤
        (P.map fun p => (dist p c ^ 2 - r ^ 2) ^ 2).sum → c' = c ∧ r' = r) ∧
      (∀ c' r', 0 < r' → (∀ p ∈ P, p ∈ Metric.sphere c' r') → c' = c ∧ r' = r)) := by
  have hlen3 : P.length < 4 → ∃ msg, Sphere.bestFit (rows P) = .error (.valueError msg) := by
    intro h
    exact ⟨_, by simp [Sphere.bestFit, newPoints_rows hP, rowDim_rows hP, h]; rfl⟩
  have hrank : Pts.affineRank none (rows P) ≠ .ok 3 →
      ∃ msg, Sphere.bestFit (rows P) = .error (.valueError msg) := by
    intro h
    by_cases h3 : P.length < 4
    · exact hlen3 h3
    obtain ⟨r, hr, -⟩ := (C21_affine_rank_laws hP).1 none (by simp)
    have h2 : r ≠ 3 := by rintro rfl; exact h hr
    exact ⟨_, by simp [Sphere.bestFit, newPoints_rows hP, rowDim_rows hP, h3, hr, h2]; rfl⟩
  refine ⟨hlen3, hrank, ?_, ?_⟩
  · intro hcol
    apply hrank
    intro h
    obtain ⟨r, hr, hle⟩ := (C21_affine_rank_laws hP).1 none (by simp)
    rw [h] at hr; cases hr
    have := coplanar_iff_finrank_le_two.mp hcol
    omega
  · intro hr hw
    have hl := affineRank_lt_length hP hr
    obtain ⟨c, k, hls, hN⟩ := fit_normal (n := 3) (by omega) hw
    obtain ⟨hpos, hmean, hmin, huniq⟩ := fit_props (exists_ne_of_rank hP hr (by omega)) hw hN
    have hs : Real.sqrt (‖c‖ ^ 2 + k) ^ 2 = ‖c‖ ^ 2 + k := Real.sq_sqrt hpos.le
    have hsp : 0 < Real.sqrt (‖c‖ ^ 2 + k) := Real.sqrt_pos.mpr hpos
    have h3' : ¬ (rows P).length < 4 := by simp [rows]; omega
    have hval : Sphere.bestFit (rows P) = Sphere.new (arr c) (Real.sqrt (‖c‖ ^ 2 + k)) := by
      have ht : (arr c ++ [k]).take 3 = arr c := by simp [arr3]
      have hk : (arr c ++ [k]).getD 3 0 = k := by simp [arr3]
      simp only [Sphere.bestFit, newPoints_rows hP, rowDim_rows hP, ok_bind, h3', hr, hls, arr_join, ht, zero_real, hk,
        dotv_arr]
      simp
    have hl' : (P.length : ℝ) ≠ 0 := by rw [Nat.cast_ne_zero]; omega
    refine ⟨_, c, _, hval.trans (Sphere.new_arr c hsp), Sphere.new_arr c hsp, hsp, ?_, ?_, ?_, ?_⟩
    · rw [hs, ← hmean]; field_simp
    · intro c' r'; rw [hs]; exact hmin c' r'
    · intro c' r' hr' hle
      rw [hs] at hle
      obtain ⟨e1, e2⟩ := huniq c' r' hle
      exact ⟨e1, by rw [← e2, Real.sqrt_sq hr'.le]⟩
    · intro c' r' hr' hon
      have h0 : (P.map fun p => (dist p c' ^ 2 - r' ^ 2) ^ 2).sum = 0 := by
        rw [List.map_congr_left (g := fun _ => (0 : ℝ)) (by
          intro p hp
          have : dist p c' = r' := hon p hp
          rw [this]; ring)]
        simp
      have h1 : 0 ≤ (P.map fun p => (dist p c ^ 2 - (‖c‖ ^ 2 + k)) ^ 2).sum := List.sum_nonneg (by
          intro y hy; obtain ⟨z, hz, rfl⟩ := List.mem_map.mp hy; positivity)
      obtain ⟨e1, e2⟩ := huniq c' r' (by rw [h0]; exact h1)
      exact ⟨e1, by rw [← e2, Real.sqrt_sq hr'.le]⟩

open Classical in
/-- A criterion for full affine rank with the default tolerance. -/
theorem affineRank_full [NumpyExt ℝ] [LawfulNumpy] [NeZero n] {P : List (E n)} (hP : P ≠ []) {a b : ℝ}
    (ha : ∀ x : E n, x ≠ 0 → a * ‖x‖ ^ 2 ≤ spread P.toFinset x) (hb : ∀ x : E n, spread P.toFinset x ≤ b * ‖x‖ ^ 2)
    (hab : b * ((max P.length n : ℕ) * (2 : ℝ)⁻¹ ^ 52) ^ 2 < a) : Pts.affineRank none (rows P) = .ok n := by
  obtain ⟨A, W, σ, V, hd, hsp, hs, -, ⟨hA, hlen⟩, hr⟩ := affineRank_rows hP none
  have hn := NeZero.pos n
  have hAl := List.length_pos_iff.mpr hA
  have h0 : 0 < min A.length n := by omega
  have hσ : σ 0 ^ 2 ≤ b := by
    have := hd.sum_inner_sq (V 0)
    rw [hs, Finset.sum_eq_single 0] at this
    · rw [hd.inner_V h0 h0] at this
      have h1 : ‖V 0‖ = 1 := hd.hV.1 ⟨0, h0⟩
      have := hb (V 0)
      rw [h1] at this
      simp at *
      linarith
    · intro l hl hlm; rw [hd.inner_V (mem_range.mp hl) h0, if_neg hlm]; simp
    · intro h; exact absurd (mem_range.mpr h0) h
  have hσ0 := hd.nonneg 0
  have hmax : ((max A.length n : ℕ) : ℝ) ≤ (max P.length n : ℕ) := by exact_mod_cast (by omega)
  rw [hr]
  congr 1
  apply le_antisymm
  · exact (Dec.cnt_le _ _ _).trans (min_le_right _ _)
  · simp only [Option.getD_none]
    rw [hd.le_cnt_iff (by positivity)]
    refine ⟨⊤, by simp, fun x _ hx => ?_⟩
    rw [hs]
    refine lt_of_lt_of_le ?_ (ha x hx)
    have hx2 : 0 < ‖x‖ ^ 2 := by have := norm_pos_iff.mpr hx; positivity
    apply mul_lt_mul_of_pos_right _ hx2
    refine lt_of_le_of_lt ?_ hab
    have h1 : ((max A.length n : ℕ) : ℝ) * (2 : ℝ)⁻¹ ^ 52 ≤ (max P.length n : ℕ) * (2 : ℝ)⁻¹ ^ 52 :=
      mul_le_mul_of_nonneg_right hmax (by positivity)
    calc (σ 0 * (max A.length n : ℕ) * (2 : ℝ)⁻¹ ^ 52) ^ 2
        = σ 0 ^ 2 * ((max A.length n : ℕ) * (2 : ℝ)⁻¹ ^ 52) ^ 2 := by ring
      _ ≤ b * ((max P.length n : ℕ) * (2 : ℝ)⁻¹ ^ 52) ^ 2 := by
        apply mul_le_mul hσ _ (by positivity) ((sq_nonneg _).trans hσ)
        exact pow_le_pow_left₀ (by positivity) h1 2

/-- Four points of the unit circle around `(X, 0)`. -/
noncomputable def fourPoints (X : ℝ) : List (E 2) := [vec2 (X + 1) 0, vec2 (X - 1) 0, vec2 X 1, vec2 X (-1)]

theorem fourPoints_on (X : ℝ) : ∀ p ∈ fourPoints X, p ∈ Metric.sphere (vec2 X 0) 1 := by
  intro p hp
  simp only [fourPoints, List.mem_cons, List.not_mem_nil, or_false] at hp
  have : dist p (vec2 X 0) ^ 2 = 1 := by
    rw [dist_eq_norm, norm_sq2]
    rcases hp with rfl | rfl | rfl | rfl <;> simp [vec2]
  show dist p (vec2 X 0) = 1
  have h0 := dist_nonneg (x := p) (y := vec2 X 0)
  nlinarith

theorem fourPoints_rank [NumpyExt ℝ] [LawfulNumpy] (X : ℝ) : Pts.affineRank none (rows (fourPoints X)) = .ok 2 := by
  classical
  have hnd : (fourPoints X).Nodup := by
    have h : ∀ a b c d : ℝ, vec2 a b = vec2 c d ↔ a = c ∧ b = d := by
      intro a b c d
      constructor
      · intro h
        exact ⟨by simpa [vec2] using congrFun (congrArg WithLp.ofLp h) 0,
          by simpa [vec2] using congrFun (congrArg WithLp.ofLp h) 1⟩
      · rintro ⟨rfl, rfl⟩; rfl
    simp only [fourPoints, List.nodup_cons, List.mem_cons, List.not_mem_nil, or_false, not_or, h, not_and_or,
      List.nodup_nil, not_false_eq_true, and_true]
    norm_num
    intro hh; linarith
  have hs : ∀ x : E 2, spread (fourPoints X).toFinset x = 2 * ‖x‖ ^ 2 := by
    intro x
    rw [spread, List.toFinset_card_of_nodup hnd, List.sum_toFinset _ hnd, List.sum_toFinset _ hnd, norm_sq2]
    simp [fourPoints, inner2, vec2]
    ring
  refine affineRank_full (a := 2) (b := 2) (by simp [fourPoints]) (fun x _ => (hs x).ge) (fun x => (hs x).le) ?_
  simp [fourPoints]
  norm_num

theorem fourPoints_form (X : ℝ) (x : E 3) : ((fourPoints X).map fun p => (inner ℝ (designRow p) x : ℝ) ^ 2).sum =
    8 * x 0 ^ 2 + 8 * x 1 ^ 2 + 4 * (2 * X * x 0 + x 2) ^ 2 := by
  have : ∀ p : E 2, (inner ℝ (designRow p) x : ℝ) = 2 * p 0 * x 0 + 2 * p 1 * x 1 + x 2 := by
    intro p
    rw [inner3]
    have h2 : designRow p 2 = 1 := by
      have := Fin.snoc_last (α := fun _ => ℝ) (1 : ℝ) (fun i : Fin 2 => 2 * p i)
      simpa [designRow] using this
    have h1 : designRow p 1 = 2 * p 1 := by
      have := Fin.snoc_castSucc (α := fun _ => ℝ) (1 : ℝ) (fun i : Fin 2 => 2 * p i) 1
      simpa [designRow] using this
    have h0 : designRow p 0 = 2 * p 0 := by
      have := Fin.snoc_castSucc (α := fun _ => ℝ) (1 : ℝ) (fun i : Fin 2 => 2 * p i) 0
      simpa [designRow] using this
    rw [h0, h1, h2]; ring
  simp only [this]
  simp [fourPoints, vec2]
  ring

/-- The hypotheses of C47 are met by four points of the unit circle. -/
example [NumpyExt ℝ] [LawfulNumpy] :
    Pts.affineRank none (rows (fourPoints 0)) = .ok 2 ∧ WellConditioned (fourPoints 0) := by
  refine ⟨fourPoints_rank 0, ?_⟩
  intro x y hx hy
  rw [fourPoints_form, fourPoints_form]
  have hx' := norm_sq3 x
  have hy' := norm_sq3 y
  rw [hx] at hx'; rw [hy] at hy'
  have : (fourPoints 0).length = 4 := rfl
  rw [this]
  norm_num
  nlinarith [sq_nonneg (x 0), sq_nonneg (x 1), sq_nonneg (x 2), sq_nonneg (y 0), sq_nonneg (y 1), sq_nonneg (y 2)]

theorem far_numbers {c0 c1 r k : ℝ} (h0 : |c0 - 2 ^ 30| ≤ 1000) (h1 : |c1| ≤ 1000) (hr : |r - 1| ≤ 1000)
    (hk : k = r ^ 2 - c0 ^ 2 - c1 ^ 2)
    (h : (-c0 + 2 * 2 ^ 30 * k) ^ 2 * (((2 : ℝ)⁻¹ ^ 50) ^ 2 * (16 * (2 ^ 30) ^ 2 + 8)) ≤ (c0 ^ 2 + c1 ^ 2 + k ^ 2) * 8) : False := by
  have a0 := abs_le.mp h0
  have a1 := abs_le.mp h1
  have ar := abs_le.mp hr
  have hr2 : r ^ 2 ≤ 2000000 := by nlinarith
  have hc1 : c1 ^ 2 ≤ 1000000 := by nlinarith
  have hc0 : (2 ^ 30 - 1000) ^ 2 ≤ c0 ^ 2 := pow_le_pow_left₀ (by norm_num) (by linarith) 2
  have hc0' : c0 ^ 2 ≤ (2 ^ 30 + 1000) ^ 2 := pow_le_pow_left₀ (by linarith) (by linarith) 2
  have hk1 : k ≤ -(2 ^ 59) := by rw [hk]; norm_num at hc0 ⊢; nlinarith [sq_nonneg c1]
  have hk2 : -(2 ^ 61) ≤ k := by rw [hk]; norm_num at hc0' ⊢; nlinarith [sq_nonneg r]
  have hL : 2 ^ 90 ≤ -(-c0 + 2 * 2 ^ 30 * k) := by norm_num at *; linarith
  have hL2 : (2 ^ 90) ^ 2 ≤ (-c0 + 2 * 2 ^ 30 * k) ^ 2 := by
    rw [← neg_sq (-c0 + _)]; exact pow_le_pow_left₀ (by norm_num) hL 2
  have hk3 : k ^ 2 ≤ (2 ^ 61) ^ 2 := by
    rw [← neg_sq]; exact pow_le_pow_left₀ (by linarith) (by linarith) 2
  have : (2 ^ 90 : ℝ) ^ 2 * (((2 : ℝ)⁻¹ ^ 50) ^ 2 * (16 * (2 ^ 30) ^ 2 + 8)) ≤
      ((2 ^ 30 + 1000) ^ 2 + 1000000 + (2 ^ 61) ^ 2) * 8 := by
    refine le_trans (mul_le_mul_of_nonneg_right hL2 (by positivity)) (h.trans ?_)
    linarith
  norm_num at this

/-- C47, defect: the result depends on the distance of the points to the origin.  For four points of the unit
circle around `(2³⁰, 0)`, which pass all checks, `np.linalg.lstsq` cuts off a singular value, and the circle
returned is wrong by 1000 or more in the center or the radius. -/
theorem C47_far_from_origin_defect [NumpyExt ℝ] [LawfulNumpy] :
    (∀ p ∈ fourPoints (2 ^ 30), p ∈ Metric.sphere (vec2 (2 ^ 30) 0) 1) ∧
    Pts.affineRank none (rows (fourPoints (2 ^ 30))) = .ok 2 ∧
    ∀ (c : E 2) (r : ℝ), Circle.bestFit (rows (fourPoints (2 ^ 30))) = .ok ⟨arr c, r⟩ →
      1000 ≤ dist c (vec2 (2 ^ 30) 0) ∨ 1000 ≤ |r - 1| := by
  refine ⟨fourPoints_on _, fourPoints_rank _, fun c r hfit => ?_⟩
  obtain ⟨P, hPdef⟩ : ∃ P, P = fourPoints (2 ^ 30) := ⟨_, rfl⟩
  have hrank := fourPoints_rank (2 ^ 30)
  rw [← hPdef] at hfit hrank
  have hP : P ≠ [] := by rw [hPdef]; simp [fourPoints]
  have hPl : P.length = 4 := by rw [hPdef]; rfl
  obtain ⟨A, hA⟩ : ∃ A, A = P.map designRow := ⟨_, rfl⟩
  have hAl : A.length = P.length := by simp [hA]
  have hAne : A ≠ [] := by rintro rfl; simp at hAl; omega
  obtain ⟨b, hb⟩ : ∃ b : E A.length, b = WithLp.toLp 2 fun i : Fin A.length => ‖P.get (i.cast hAl)‖ ^ 2 := ⟨_, rfl⟩
  have hbarr : Sphere.fitRhs (rows P) = arr b := by
    simp only [Sphere.fitRhs, rows, List.map_map, Function.comp_def, sumL_sq_arr]
    apply List.ext_getElem
    · simp [hAl]
    · intro i h1 h2
      simp [arr, hb]
  obtain ⟨W, σ, V, h1, h2, h3, h4, h5, h6⟩ := LawfulNumpy.lstsq A b hAne (by omega)
  have hd : Dec A W σ V := ⟨h1, h2, h3, h4, h5⟩
  have hmin : min A.length 3 = 3 := by omega
  rw [hmin] at h6
  obtain ⟨F, hF⟩ : ∃ F, F = (Finset.range 3).filter
      (fun l => (2 : ℝ)⁻¹ ^ 52 * (max A.length 3 : ℕ) * σ 0 < σ l) := ⟨_, rfl⟩
  obtain ⟨x, hx⟩ : ∃ x, x = ∑ l ∈ F, ((inner ℝ (W l) b : ℝ) / σ l) • V l := ⟨_, rfl⟩
  rw [← hF, ← hx] at h6
  have hFsub : ∀ l ∈ F, l < min A.length 3 := by
    intro l hl; rw [hF, mem_filter, mem_range] at hl; omega
  have hform : ∀ y : E 3, ∑ i : Fin A.length, (inner ℝ (A.get i) y : ℝ) ^ 2 =
      8 * y 0 ^ 2 + 8 * y 1 ^ 2 + 4 * (2 * 2 ^ 30 * y 0 + y 2) ^ 2 := by
    intro y
    rw [← fourPoints_form, ← hPdef, ← sum_map_get A (fun a => (inner ℝ a y : ℝ) ^ 2), hA, List.map_map]
    rfl
  have hVx : ∀ l ∈ F, (inner ℝ (V l) x : ℝ) = (inner ℝ (W l) b : ℝ) / σ l := by
    intro l hl
    rw [hx, inner_sum, Finset.sum_eq_single l]
    · rw [real_inner_smul_right, hd.inner_V (hFsub l hl) (hFsub l hl)]; simp
    · intro m hm hml
      rw [real_inner_smul_right, hd.inner_V (hFsub l hl) (hFsub m hm), if_neg (Ne.symm hml)]; simp
    · intro h; exact absurd hl h
  have hsubset : F ⊆ range (min A.length 3) := fun l hl => mem_range.mpr (hFsub l hl)
  -- the largest singular value
  have hσ0 : 16 * (2 ^ 30) ^ 2 + 8 ≤ σ 0 ^ 2 := by
    have e := hd.sum_inner_sq (vec3 1 0 0)
    rw [hform] at e
    have hbes := hd.bessel (vec3 1 0 0)
    have hle : ∑ l ∈ range (min A.length 3), σ l ^ 2 * (inner ℝ (V l) (vec3 1 0 0) : ℝ) ^ 2 ≤
        σ 0 ^ 2 * ∑ l ∈ range (min A.length 3), (inner ℝ (V l) (vec3 1 0 0) : ℝ) ^ 2 := by
      rw [mul_sum]
      refine sum_le_sum fun l _ => mul_le_mul_of_nonneg_right ?_ (sq_nonneg _)
      exact pow_le_pow_left₀ (h3 l) (h4 (Nat.zero_le l)) 2
    have hn : ‖vec3 1 0 0‖ ^ 2 = 1 := by rw [norm_sq3]; simp [vec3]
    rw [hn] at hbes
    have := mul_le_mul_of_nonneg_left hbes (sq_nonneg (σ 0))
    have e8 : 8 * (vec3 1 0 0) 0 ^ 2 + 8 * (vec3 1 0 0) 1 ^ 2 + 4 * (2 * 2 ^ 30 * (vec3 1 0 0) 0 + (vec3 1 0 0) 2) ^ 2 =
        16 * (2 ^ 30) ^ 2 + 8 := by simp [vec3]; norm_num
    rw [e8] at e
    rw [e]
    refine hle.trans ?_
    rwa [mul_one] at this
  -- the kept part of the direction `w`
  obtain ⟨w, hw⟩ : ∃ w, w = vec3 (-1) 0 (2 * 2 ^ 30) := ⟨_, rfl⟩
  have hw8 : ((2 : ℝ)⁻¹ ^ 50) ^ 2 * (16 * (2 ^ 30) ^ 2 + 8) * ∑ l ∈ F, (inner ℝ (V l) w : ℝ) ^ 2 ≤ 8 := by
    have e := hd.sum_inner_sq w
    rw [hform] at e
    have e8 : 8 * w 0 ^ 2 + 8 * w 1 ^ 2 + 4 * (2 * 2 ^ 30 * w 0 + w 2) ^ 2 = 8 := by
      rw [hw]; simp [vec3]
    rw [e8] at e
    rw [mul_sum]
    refine le_trans (sum_le_sum (g := fun l => σ l ^ 2 * (inner ℝ (V l) w : ℝ) ^ 2) fun l hl => ?_) (le_trans
      (sum_le_sum_of_subset_of_nonneg hsubset fun l _ _ => mul_nonneg (sq_nonneg _) (sq_nonneg _)) e.ge)
    refine mul_le_mul_of_nonneg_right ?_ (sq_nonneg _)
    rw [hF, mem_filter] at hl
    have hlt := hl.2
    have hmax : ((max A.length 3 : ℕ) : ℝ) = 4 := by rw [hAl, hPl]; norm_num
    rw [hmax] at hlt
    have h50 : (2 : ℝ)⁻¹ ^ 52 * 4 = (2 : ℝ)⁻¹ ^ 50 := by norm_num
    rw [h50] at hlt
    have h00 := h3 0
    have hq : (0 : ℝ) ≤ (2 : ℝ)⁻¹ ^ 50 * σ 0 := mul_nonneg (pow_nonneg (by norm_num) _) h00
    have := pow_le_pow_left₀ hq hlt.le 2
    rw [mul_pow] at this
    refine le_trans ?_ this
    exact mul_le_mul_of_nonneg_left hσ0 (by positivity)
  have hxw : (inner ℝ x w : ℝ) ^ 2 ≤ ‖x‖ ^ 2 * ∑ l ∈ F, (inner ℝ (V l) w : ℝ) ^ 2 := by
    have e : (inner ℝ x w : ℝ) = ∑ l ∈ F, (inner ℝ (V l) x : ℝ) * (inner ℝ (V l) w : ℝ) := by
      conv_lhs => rw [hx, sum_inner]
      refine sum_congr rfl fun l hl => ?_
      rw [real_inner_smul_left, hVx l hl]
    rw [e]
    refine (sum_mul_sq_le_sq_mul_sq F _ _).trans (mul_le_mul_of_nonneg_right ?_ (sum_nonneg fun _ _ => sq_nonneg _))
    exact (sum_le_sum_of_subset_of_nonneg hsubset fun l _ _ => sq_nonneg _).trans (hd.bessel x)
  have hfin : (inner ℝ x w : ℝ) ^ 2 * (((2 : ℝ)⁻¹ ^ 50) ^ 2 * (16 * (2 ^ 30) ^ 2 + 8)) ≤ ‖x‖ ^ 2 * 8 := by
    have hq : (0 : ℝ) ≤ ((2 : ℝ)⁻¹ ^ 50) ^ 2 * (16 * (2 ^ 30) ^ 2 + 8) := by positivity
    calc _ ≤ (‖x‖ ^ 2 * ∑ l ∈ F, (inner ℝ (V l) w : ℝ) ^ 2) * (((2 : ℝ)⁻¹ ^ 50) ^ 2 * (16 * (2 ^ 30) ^ 2 + 8)) :=
          mul_le_mul_of_nonneg_right hxw hq
      _ = ‖x‖ ^ 2 * (((2 : ℝ)⁻¹ ^ 50) ^ 2 * (16 * (2 ^ 30) ^ 2 + 8) * ∑ l ∈ F, (inner ℝ (V l) w : ℝ) ^ 2) := by ring
      _ ≤ ‖x‖ ^ 2 * 8 := mul_le_mul_of_nonneg_left hw8 (sq_nonneg _)
  -- the code
  have h3' : ¬ (rows P).length < 3 := by simp [rows]; omega
  have hval : Circle.bestFit (rows P) = Circle.new [x 0, x 1] (Real.sqrt (x 2 + x 0 ^ 2 + x 1 ^ 2)) := by
    simp only [Circle.bestFit, newPoints_rows hP, rowDim_rows hP, ok_bind, h3', hrank, fitMatrix_rows, ← hA, hbarr, h6, arr3]
    simp
  rw [hval] at hfit
  have hv2 : [x 0, x 1] = arr (vec2 (x 0) (x 1)) := by simp [arr2, vec2]
  rw [hv2] at hfit
  obtain ⟨hrpos, hC⟩ := Circle.new_ok hfit
  injection hC with hc hrr
  have hc' : c = vec2 (x 0) (x 1) := arr_injective hc
  have hc0 : c 0 = x 0 := by rw [hc']; simp [vec2]
  have hc1 : c 1 = x 1 := by rw [hc']; simp [vec2]
  by_contra hcon
  push Not at hcon
  obtain ⟨hdist, hrad⟩ := hcon
  have hd2 : dist c (vec2 (2 ^ 30) 0) ^ 2 = (x 0 - 2 ^ 30) ^ 2 + x 1 ^ 2 := by
    rw [dist_eq_norm, norm_sq2]; simp [vec2, hc0, hc1]
  have hdn := dist_nonneg (x := c) (y := vec2 (2 ^ 30) 0)
  have hd3 : dist c (vec2 (2 ^ 30) 0) ^ 2 ≤ 1000 ^ 2 := pow_le_pow_left₀ hdn hdist.le 2
  rw [hd2] at hd3
  have hr2 : r ^ 2 = x 2 + x 0 ^ 2 + x 1 ^ 2 := by
    rw [hrr]; exact Real.sq_sqrt (Real.sqrt_pos.mp hrpos).le
  refine far_numbers (c0 := x 0) (c1 := x 1) (r := r) (k := x 2) ?_ ?_ hrad.le (by linarith) ?_
  · exact abs_le_of_sq_le_sq (by nlinarith [sq_nonneg (x 1)]) (by norm_num)
  · exact abs_le_of_sq_le_sq (by nlinarith [sq_nonneg (x 0 - 2 ^ 30)]) (by norm_num)
  · have e1 : (inner ℝ x w : ℝ) = -x 0 + 2 * 2 ^ 30 * x 2 := by rw [inner3, hw]; simp [vec3]; ring
    rw [e1, norm_sq3] at hfin
    exact hfin

end SkSpatial
