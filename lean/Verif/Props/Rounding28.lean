import Verif.Spec.Lstsq
import Verif.Props.Rounding27
import Verif.Props.FitSphere
/-! # C118: `Circle.best_fit` and `Sphere.best_fit` under rounding -/

namespace SkSpatial
open StdRounding

variable {u η : ℝ} {fl : Arith} {m n : ℕ}

theorem frob_ofFn_sq' (A : Fin m → E n) : frob (List.ofFn A) ^ 2 = ∑ i, ‖A i‖ ^ 2 := by
  rw [frob, List.map_ofFn, List.sum_ofFn, Real.sq_sqrt (Finset.sum_nonneg fun i _ => by simp only [Function.comp]; positivity)]
  rfl

theorem mulE_add (A : Fin m → E n) (x y : E n) : mulE A (x + y) = mulE A x + mulE A y := by
  ext i; simp [mulE, inner_add_right]

theorem mulE_sub (A : Fin m → E n) (x y : E n) : mulE A (x - y) = mulE A x - mulE A y := by
  ext i; simp [mulE, inner_sub_right]

theorem mulE_smul (A : Fin m → E n) (t : ℝ) (x : E n) : mulE A (t • x) = t • mulE A x := by
  ext i; simp [mulE, real_inner_smul_right]

theorem mulE_sub_left (A B : Fin m → E n) (x : E n) : mulE (fun i => A i - B i) x = mulE A x - mulE B x := by
  ext i; simp [mulE, inner_sub_left]

theorem norm_mulE_sq (A : Fin m → E n) (x : E n) : ‖mulE A x‖ ^ 2 = ∑ i, (inner ℝ (A i) x : ℝ) ^ 2 := by
  rw [EuclideanSpace.norm_sq_eq]; simp [mulE]

theorem norm_mulE_le (A : Fin m → E n) (x : E n) : ‖mulE A x‖ ≤ frob (List.ofFn A) * ‖x‖ := by
  refine le_of_sq_le_sq ?_ (mul_nonneg (frob_nonneg _) (norm_nonneg _))
  rw [norm_mulE_sq, mul_pow, frob_ofFn_sq', Finset.sum_mul]
  refine Finset.sum_le_sum fun i _ => ?_
  rw [← sq_abs, ← mul_pow]
  exact pow_le_pow_left₀ (abs_nonneg _) (abs_real_inner_le_norm _ _) 2

/-- A parabola with a minimum at `0`. -/
theorem linear_zero {a b ε : ℝ} (hε : 0 < ε) (h : ∀ t, |t| ≤ ε → 0 ≤ -2 * t * a + t ^ 2 * b) : a = 0 := by
  by_contra ha
  have hb : 0 ≤ |b| := abs_nonneg b
  obtain ⟨s, hs, hs1, hs2⟩ : ∃ s : ℝ, 0 < s ∧ s ≤ ε ∧ s * |b| ≤ |a| := by
    have hapos : 0 < |a| := abs_pos.mpr ha
    refine ⟨min ε (|a| / (|b| + 1)), by positivity, min_le_left _ _, ?_⟩
    calc min ε (|a| / (|b| + 1)) * |b| ≤ |a| / (|b| + 1) * |b| := mul_le_mul_of_nonneg_right (min_le_right _ _) hb
      _ ≤ |a| / (|b| + 1) * (|b| + 1) := mul_le_mul_of_nonneg_left (by linarith) (by positivity)
      _ = |a| := by field_simp
  have hb' := le_abs_self b
  rcases lt_or_gt_of_ne ha with h1 | h1
  · have := h (-s) (by rw [abs_neg, abs_of_pos hs]; exact hs1)
    rw [abs_of_neg h1] at hs2
    nlinarith
  · have := h s (by rw [abs_of_pos hs]; exact hs1)
    rw [abs_of_pos h1] at hs2
    nlinarith

/-- The normal equations of a least-squares solution. -/
theorem normal_of_min {A : Fin m → E n} {b : E m} {x : E n} (hx : ∀ y, ‖b - mulE A x‖ ≤ ‖b - mulE A y‖) (y : E n) :
    (inner ℝ (mulE A y) (b - mulE A x) : ℝ) = 0 := by
  refine linear_zero (ε := 1) (b := ‖mulE A y‖ ^ 2) one_pos fun t _ => ?_
  have h1 := hx (x + t • y)
  rw [mulE_add, mulE_smul, show b - (mulE A x + t • mulE A y) = (b - mulE A x) - t • mulE A y by abel] at h1
  have h2 := pow_le_pow_left₀ (norm_nonneg _) h1 2
  rw [norm_sub_sq_real (b - mulE A x), real_inner_smul_right, norm_smul, mul_pow, Real.norm_eq_abs, sq_abs, real_inner_comm] at h2
  linarith

theorem min_of_normal {A : Fin m → E n} {b : E m} {x : E n} (h : ∀ y, (inner ℝ (mulE A y) (b - mulE A x) : ℝ) = 0) (y : E n) :
    ‖b - mulE A x‖ ≤ ‖b - mulE A y‖ := by
  refine le_of_sq_le_sq ?_ (norm_nonneg _)
  have h1 : b - mulE A y = (b - mulE A x) - mulE A (y - x) := by rw [mulE_sub]; abel
  rw [h1, norm_sub_sq_real (b - mulE A x), real_inner_comm, h]
  have := sq_nonneg ‖mulE A (y - x)‖
  linarith

/-- The exact contract is the stable one with `η = 0`. -/
theorem StableLstsq.of_lawful [NumpyExt ℝ] [LawfulNumpy] : StableLstsq 0 where
  nonneg := le_rfl
  lstsq {m n} A b hn hA := by
    have h0 : frob (List.ofFn fun i => A i - A i) ≤ 0 * frob (List.ofFn A) := by
      rw [zero_mul]
      refine le_of_sq_le_sq ?_ le_rfl
      rw [frob_ofFn_sq']; simp
    have hker := hA A h0
    suffices h : ∃ x, (∀ y, (inner ℝ (mulE A y) (b - mulE A x) : ℝ) = 0) ∧ NumpyExt.lstsq (rows (List.ofFn A)) (arr b) = arr x by
      obtain ⟨x, h1, h2⟩ := h
      exact ⟨A, b, x, h0, by simp, min_of_normal h1, h2⟩
    have hmn : n ≤ m := by
      let f : E n →ₗ[ℝ] E m :=
        { toFun := mulE A
          map_add' := mulE_add A
          map_smul' := mulE_smul A }
      have hinj : Function.Injective f := by
        rw [injective_iff_map_eq_zero]
        intro v hv
        by_contra hne
        have h1 := hker v hne
        have h2 : mulE A v = 0 := hv
        rw [h2, norm_zero] at h1
        have : 0 ≤ (2 : ℝ)⁻¹ ^ 52 * (max m n : ℕ) * frob (List.ofFn A) * ‖v‖ :=
          mul_nonneg (mul_nonneg (by positivity) (frob_nonneg _)) (norm_nonneg _)
        linarith
      have := LinearMap.finrank_le_finrank_of_injective hinj
      simpa using this
    clear hA h0
    obtain ⟨L, hL⟩ : ∃ L, L = List.ofFn A := ⟨_, rfl⟩
    have hl : L.length = m := by simp [hL]
    have hget : ∀ i : Fin m, L.get (i.cast hl.symm) = A i := by intro i; subst hL; simp
    rw [← hL] at hker ⊢
    clear hL
    subst hl
    have hget' : A = L.get := by funext i; exact (hget i).symm
    subst hget'
    have hLne : L ≠ [] := by rintro rfl; simp at hmn; exact hn hmn
    obtain ⟨W, σ, V, h1, h2, h3, h4, h5, h6⟩ := LawfulNumpy.lstsq L b hLne hn
    have hd : Dec L W σ V := ⟨h1, h2, h3, h4, h5⟩
    have hmin : min L.length n = n := by omega
    have hσ : ∀ l, l < min L.length n → ‖mulE L.get (V l)‖ = σ l := by
      intro l hl
      rw [← Real.sqrt_sq (norm_nonneg _), norm_mulE_sq, hd.sum_inner_sq, Finset.sum_eq_single l]
      · rw [hd.inner_V hl hl]; simp [Real.sqrt_sq (h3 l)]
      · intro k hk hkl; rw [hd.inner_V (Finset.mem_range.mp hk) hl, if_neg hkl]; simp
      · intro h; exact absurd (Finset.mem_range.mpr hl) h
    have hV1 : ∀ l, l < min L.length n → ‖V l‖ = 1 := fun l hl => h2.1 ⟨l, hl⟩
    have h0n : 0 < min L.length n := by omega
    have hof : List.ofFn L.get = L := List.ofFn_get L
    have hcut : ∀ l, l < min L.length n → (2 : ℝ)⁻¹ ^ 52 * (max L.length n : ℕ) * σ 0 < σ l := by
      intro l hl
      have h7 := hker (V l) (by rw [← norm_pos_iff, hV1 l hl]; exact one_pos)
      rw [hV1 l hl, mul_one, hσ l hl] at h7
      have h8 := norm_mulE_le L.get (V 0)
      rw [hσ 0 h0n, hV1 0 h0n, mul_one, hof] at h8
      exact lt_of_le_of_lt (mul_le_mul_of_nonneg_left h8 (by positivity)) h7
    have hkeep : (Finset.range (min L.length n)).filter
        (fun l => (2 : ℝ)⁻¹ ^ 52 * (max L.length n : ℕ) * σ 0 < σ l) = Finset.range (min L.length n) :=
      Finset.filter_true_of_mem fun l hl => hcut l (Finset.mem_range.mp hl)
    rw [hkeep] at h6
    obtain ⟨x, hx⟩ : ∃ x, x = ∑ l ∈ Finset.range (min L.length n), ((inner ℝ (W l) b : ℝ) / σ l) • V l := ⟨_, rfl⟩
    rw [← hx] at h6
    refine ⟨x, fun y => ?_, h6⟩
    have hpos : ∀ l, l < min L.length n → σ l ≠ 0 := by
      intro l hl
      have h9 := h3 0
      have : (0 : ℝ) ≤ (2 : ℝ)⁻¹ ^ 52 * (max L.length n : ℕ) * σ 0 := by positivity
      exact (lt_of_le_of_lt this (hcut l hl)).ne'
    have hWx : ∀ l, l < min L.length n →
        ∑ i : Fin L.length, W l i * (b i - (inner ℝ (L.get i) x : ℝ)) = 0 := by
      intro l hl
      have e1 : ∑ i : Fin L.length, W l i * b i = inner ℝ (W l) b := by
        rw [PiLp.inner_apply]; refine Finset.sum_congr rfl fun i _ => ?_
        simp [mul_comm]
      have e2 : ∑ i : Fin L.length, W l i * (inner ℝ (L.get i) x : ℝ) = σ l * (inner ℝ (V l) x : ℝ) := by
        rw [← real_inner_smul_left, hd.V_eq hl, sum_inner]
        refine Finset.sum_congr rfl fun i _ => ?_
        rw [real_inner_smul_left]
      have e3 : (inner ℝ (V l) x : ℝ) = (inner ℝ (W l) b : ℝ) / σ l := by
        rw [hx, inner_sum, Finset.sum_eq_single l]
        · rw [real_inner_smul_right, hd.inner_V hl hl]; simp
        · intro m hm hml
          rw [real_inner_smul_right, hd.inner_V hl (Finset.mem_range.mp hm), if_neg (Ne.symm hml)]; simp
        · intro h; exact absurd (Finset.mem_range.mpr hl) h
      simp only [mul_sub, Finset.sum_sub_distrib]
      rw [e1, e2, e3, mul_div_cancel₀ _ (hpos l hl), sub_self]
    have e : (inner ℝ (mulE L.get y) (b - mulE L.get x) : ℝ) =
        ∑ i : Fin L.length, (inner ℝ (L.get i) y : ℝ) * (b i - (inner ℝ (L.get i) x : ℝ)) := by
      rw [PiLp.inner_apply]
      refine Finset.sum_congr rfl fun i _ => ?_
      simp [mulE, mul_comm]
    rw [e]
    have : ∀ i : Fin L.length, (inner ℝ (L.get i) y : ℝ) * (b i - (inner ℝ (L.get i) x : ℝ)) =
        ∑ l ∈ Finset.range (min L.length n), (σ l * (inner ℝ (V l) y : ℝ)) * (W l i * (b i - (inner ℝ (L.get i) x : ℝ))) := by
      intro i
      conv_lhs => rw [hd.inner_get i y, Finset.sum_mul]
      refine Finset.sum_congr rfl fun l _ => ?_
      ring
    rw [Finset.sum_congr rfl fun i _ => this i, Finset.sum_comm]
    apply Finset.sum_eq_zero
    intro l hl
    rw [← Finset.mul_sum, hWx l (Finset.mem_range.mp hl), mul_zero]

/-- Least-squares solutions of nearby systems are near. -/
theorem lstsq_perturb {A A' : Fin m → E n} {b b' : E m} {x x' : E n} {e f σ : ℝ} (hσ : 0 < σ)
    (hA : ∀ v, σ * ‖v‖ ≤ ‖mulE A v‖) (hE : frob (List.ofFn fun i => A' i - A i) ≤ e) (he : 2 * e ≤ σ) (hb : ‖b' - b‖ ≤ f)
    (hx : ∀ y, ‖b - mulE A x‖ ≤ ‖b - mulE A y‖) (hx' : ∀ y, ‖b' - mulE A' x'‖ ≤ ‖b' - mulE A' y‖) :
    ‖x' - x‖ ≤ 2 / σ * (f + e * ‖x‖ + e * (2 * ‖b - mulE A x‖ / σ)) := by
  have he0 : 0 ≤ e := (frob_nonneg _).trans hE
  have hf0 : 0 ≤ f := (norm_nonneg _).trans hb
  have hEv : ∀ v, ‖mulE A' v - mulE A v‖ ≤ e * ‖v‖ := fun v => by
    rw [← mulE_sub_left]
    exact (norm_mulE_le _ v).trans (mul_le_mul_of_nonneg_right hE (norm_nonneg _))
  have hA' : ∀ v, σ / 2 * ‖v‖ ≤ ‖mulE A' v‖ := fun v => by
    have h1 := norm_sub_norm_le (mulE A v) (mulE A' v)
    rw [norm_sub_rev] at h1
    have h2 := hEv v
    have h3 := hA v
    have h4 := mul_le_mul_of_nonneg_right he (norm_nonneg v)
    linarith
  obtain ⟨z, hz⟩ : ∃ z, z = x' - x := ⟨_, rfl⟩
  obtain ⟨r, hr⟩ : ∃ r, r = b - mulE A x := ⟨_, rfl⟩
  have h1 := normal_of_min hx' z
  have h2 := normal_of_min hx z
  rw [← hr] at h2 ⊢
  rw [← hz]
  have h3 : ‖mulE A' z‖ ^ 2 = inner ℝ (mulE A' z) (b' - b) - inner ℝ (mulE A' z) (mulE A' x - mulE A x) +
      inner ℝ (mulE A' z - mulE A z) r := by
    rw [← real_inner_self_eq_norm_sq]
    have e1 : mulE A' z = (b' - b) - (mulE A' x - mulE A x) + r - (b' - mulE A' x') := by
      rw [hz, mulE_sub, hr]; abel
    conv_lhs => rw [e1]
    conv_lhs => lhs; rw [← e1]
    rw [inner_sub_right, inner_add_right, inner_sub_right, h1, inner_sub_left _ _ r, h2]
    ring
  have h4 : (inner ℝ (mulE A' z) (b' - b) : ℝ) ≤ ‖mulE A' z‖ * f :=
    (real_inner_le_norm _ _).trans (mul_le_mul_of_nonneg_left hb (norm_nonneg _))
  have h5 : -(inner ℝ (mulE A' z) (mulE A' x - mulE A x) : ℝ) ≤ ‖mulE A' z‖ * (e * ‖x‖) :=
    (neg_le_abs _).trans ((abs_real_inner_le_norm _ _).trans (mul_le_mul_of_nonneg_left (hEv x) (norm_nonneg _)))
  have h6 : (inner ℝ (mulE A' z - mulE A z) r : ℝ) ≤ ‖mulE A' z‖ * (e * (2 * ‖r‖ / σ)) := by
    refine (real_inner_le_norm _ _).trans ?_
    have h7 : ‖z‖ ≤ 2 / σ * ‖mulE A' z‖ := by
      have := hA' z
      rw [div_mul_eq_mul_div, le_div_iff₀ hσ]; linarith
    calc ‖mulE A' z - mulE A z‖ * ‖r‖ ≤ e * (2 / σ * ‖mulE A' z‖) * ‖r‖ :=
          mul_le_mul_of_nonneg_right ((hEv z).trans (mul_le_mul_of_nonneg_left h7 he0)) (norm_nonneg _)
      _ = ‖mulE A' z‖ * (e * (2 * ‖r‖ / σ)) := by ring
  have h8 : ‖mulE A' z‖ ≤ f + e * ‖x‖ + e * (2 * ‖r‖ / σ) := by
    rcases (norm_nonneg (mulE A' z)).eq_or_lt with h9 | h9
    · rw [← h9]; positivity
    · refine le_of_mul_le_mul_left ?_ h9
      linarith
  have h9 := hA' z
  have h10 : ‖z‖ ≤ 2 / σ * ‖mulE A' z‖ := by
    rw [div_mul_eq_mul_div, le_div_iff₀ hσ]; linarith
  exact h10.trans (mul_le_mul_of_nonneg_left h8 (by positivity))

theorem norm_join_sq (c : E n) (k : ℝ) : ‖join c k‖ ^ 2 = ‖c‖ ^ 2 + k ^ 2 := by
  rw [EuclideanSpace.norm_sq_eq, EuclideanSpace.norm_sq_eq, Fin.sum_univ_castSucc]
  simp [join]

theorem join_sub (c c' : E n) (k k' : ℝ) : join c' k' - join c k = join (c' - c) (k' - k) := by
  ext i
  refine Fin.lastCases ?_ (fun j => ?_) i <;> simp [join]

theorem join_comb (c d : E n) (k l t : ℝ) : join c k + t • join d l = join (c + t • d) (k + t * l) := by
  ext i
  refine Fin.lastCases ?_ (fun j => ?_) i <;> simp [join]

/-- The matrix and the right-hand side of the linear system of `best_fit`. -/
noncomputable def fitA (P : List (E n)) : Fin P.length → E (n + 1) := fun i => designRow (P.get i)
noncomputable def fitB (P : List (E n)) : E P.length := WithLp.toLp 2 fun i => ‖P.get i‖ ^ 2

theorem norm_sq_list {P : List (E n)} {v : E P.length} {f : E n → ℝ} (h : ∀ i, v i = f (P.get i)) :
    ‖v‖ ^ 2 = (P.map fun p => f p ^ 2).sum := by
  rw [EuclideanSpace.norm_sq_eq, sum_map_get P]
  refine Finset.sum_congr rfl fun i _ => ?_
  rw [h i, Real.norm_eq_abs, sq_abs]

theorem norm_list {P : List (E n)} {v : E P.length} {f : E n → ℝ} (h : ∀ i, v i = f (P.get i)) :
    ‖v‖ = √(P.map fun p => f p ^ 2).sum := by
  rw [← norm_sq_list h, Real.sqrt_sq (norm_nonneg _)]

theorem fitA_apply (P : List (E n)) (c : E n) (k : ℝ) (i : Fin P.length) :
    mulE (fitA P) (join c k) i = 2 * inner ℝ (P.get i) c + k := by
  simp only [mulE, fitA]; exact inner_designRow_join _ _ _

theorem fit_res_apply (P : List (E n)) (c : E n) (r : ℝ) (i : Fin P.length) :
    (fitB P - mulE (fitA P) (join c (r ^ 2 - ‖c‖ ^ 2))) i = dist (P.get i) c ^ 2 - r ^ 2 := by
  rw [PiLp.sub_apply, fitA_apply, residual_eq]
  simp [fitB]; ring

theorem frob_fitA (P : List (E n)) : frob (List.ofFn (fitA P)) = fitScale P := by
  rw [← Real.sqrt_sq (frob_nonneg _), frob_ofFn_sq', fitScale, sum_map_get P]
  congr 1
  refine Finset.sum_congr rfl fun i _ => ?_
  rw [fitA, EuclideanSpace.norm_sq_eq, Fin.sum_univ_castSucc, EuclideanSpace.norm_sq_eq, Finset.mul_sum]
  simp [designRow]
  refine Finset.sum_congr rfl fun j _ => by rw [mul_pow, sq_abs]; ring

theorem norm_fitB (P : List (E n)) : ‖fitB P‖ = fitMoment P := by
  rw [norm_list (f := fun p => ‖p‖ ^ 2) (fun i => rfl), fitMoment]
  congr 2
  refine List.map_congr_left fun p _ => by ring

/-- The best circle solves the linear least-squares problem. -/
theorem fit_min {P : List (E n)} {c : E n} {r : ℝ} (hr : 0 < r)
    (hmin : ∀ c' r', (P.map fun p => (dist p c ^ 2 - r ^ 2) ^ 2).sum ≤ (P.map fun p => (dist p c' ^ 2 - r' ^ 2) ^ 2).sum) (y : E (n + 1)) :
    ‖fitB P - mulE (fitA P) (join c (r ^ 2 - ‖c‖ ^ 2))‖ ≤ ‖fitB P - mulE (fitA P) y‖ := by
  obtain ⟨x, hx⟩ : ∃ x, x = join c (r ^ 2 - ‖c‖ ^ 2) := ⟨_, rfl⟩
  have hres : ∀ c' r', ‖fitB P - mulE (fitA P) (join c' (r' ^ 2 - ‖c'‖ ^ 2))‖ ^ 2 = (P.map fun p => (dist p c' ^ 2 - r' ^ 2) ^ 2).sum :=
    fun c' r' => norm_sq_list (fit_res_apply P c' r')
  rw [← hx]
  refine min_of_normal (fun y => ?_) y
  obtain ⟨d, l, rfl⟩ := exists_join y
  have hp : 0 < |l + 2 * (inner ℝ c d : ℝ)| + 1 := by positivity
  refine linear_zero (ε := r ^ 2 / (|l + 2 * (inner ℝ c d : ℝ)| + 1)) (b := ‖mulE (fitA P) (join d l)‖ ^ 2) (by positivity) fun t ht => ?_
  have h1 : 0 ≤ r ^ 2 + t * (l + 2 * (inner ℝ c d : ℝ)) + t ^ 2 * ‖d‖ ^ 2 := by
    rw [le_div_iff₀ hp] at ht
    have h2 := neg_le_abs (t * (l + 2 * (inner ℝ c d : ℝ)))
    rw [abs_mul] at h2
    have h3 := abs_nonneg t
    have h4 : 0 ≤ t ^ 2 * ‖d‖ ^ 2 := by positivity
    nlinarith
  have h2 := hmin (c + t • d) (√(r ^ 2 + t * (l + 2 * (inner ℝ c d : ℝ)) + t ^ 2 * ‖d‖ ^ 2))
  rw [← hres, ← hres, Real.sq_sqrt h1] at h2
  have h3 : join (c + t • d) (r ^ 2 + t * (l + 2 * (inner ℝ c d : ℝ)) + t ^ 2 * ‖d‖ ^ 2 - ‖c + t • d‖ ^ 2) = x + t • join d l := by
    rw [hx, join_comb]
    congr 1
    rw [norm_add_sq_real, real_inner_smul_right, norm_smul, mul_pow, Real.norm_eq_abs, sq_abs]; ring
  rw [h3, ← hx, mulE_add, mulE_smul,
    show fitB P - (mulE (fitA P) x + t • mulE (fitA P) (join d l)) = (fitB P - mulE (fitA P) x) - t • mulE (fitA P) (join d l) by abel,
    norm_sub_sq_real (fitB P - mulE (fitA P) x), real_inner_smul_right, norm_smul, mul_pow, Real.norm_eq_abs, sq_abs, real_inner_comm] at h2
  linarith

/-- The rounded matrix. -/
theorem fitMatrix_rd (h : StdRounding u fl) (P : List (E n)) : ∃ B : Fin P.length → E (n + 1),
    @Sphere.fitMatrix ℝ (rounded fl) (rows P) = rows (List.ofFn B) ∧
    frob (List.ofFn fun i => B i - fitA P i) ≤ u * fitScale P := by
  refine ⟨fun i => WithLp.toLp 2 (Fin.snoc (fun j => fl (2 * P.get i j)) 1 : Fin (n + 1) → ℝ), ?_, ?_⟩
  · simp only [Sphere.fitMatrix, rows, List.map_map]
    apply List.ext_getElem
    · simp
    · intro i h1 h2
      obtain ⟨z, hz, hzi⟩ := smul_rd (fl := fl) (2 : ℝ) (P[i]'(by simpa using h1))
      simp only [List.getElem_map, Function.comp, two_rd, one_rd, List.getElem_ofFn]
      rw [hz, arr, arr, List.ofFn_succ_last]
      simp [hzi]
  · rw [← frob_fitA]
    refine le_of_sq_le_sq ?_ (mul_nonneg h.nonneg (frob_nonneg _))
    rw [mul_pow, frob_ofFn_sq', frob_ofFn_sq', Finset.mul_sum]
    refine Finset.sum_le_sum fun i _ => ?_
    rw [← mul_pow]
    refine pow_le_pow_left₀ (norm_nonneg _) (norm_le_of_coords h.nonneg fun j => ?_) 2
    refine Fin.lastCases ?_ (fun j => ?_) j
    · simp [fitA, designRow, h.nonneg]
    · simpa [fitA, designRow] using h.err (2 * P.get i j)

/-- The rounded right-hand side. -/
theorem fitRhs_rd (h : StdRounding u fl) (hn : n ≤ 3) (hu : 8 * u ≤ 1) (P : List (E n)) : ∃ b : E P.length,
    @Sphere.fitRhs ℝ (rounded fl) (rows P) = arr b ∧ ‖b - fitB P‖ ≤ 8 * u * fitMoment P := by
  refine ⟨WithLp.toLp 2 fun i => @sumL ℝ (rounded fl) ((arr (P.get i)).map (@sq ℝ (rounded fl))), ?_, ?_⟩
  · simp only [Sphere.fitRhs, rows, List.map_map]
    apply List.ext_getElem
    · simp
    · intro i h1 h2
      simp [arr]
  · rw [← norm_fitB]
    refine norm_le_of_coords (by have := h.nonneg; positivity) fun i => ?_
    obtain ⟨p, hp⟩ : ∃ p, p = P.get i := ⟨_, rfl⟩
    have e1 : fitB P i = ‖p‖ ^ 2 := by rw [hp]; rfl
    rw [PiLp.sub_apply, e1]
    change |@sumL ℝ (rounded fl) ((arr (P.get i)).map (@sq ℝ (rounded fl))) - ‖p‖ ^ 2| ≤ _
    rw [← hp]
    have h1 : List.Forall₂ (RP (eps u) 1) ((arr p).map (@sq ℝ (rounded fl))) ((arr p).map fun t => t ^ 2) := by
      rw [List.forall₂_map_left_iff, List.forall₂_map_right_iff, List.forall₂_same]
      intro t _
      rw [pow_two]
      exact h.rp (t * t)
    have h2 := h.sumL_rp zero_le_one h1 (by
      intro y hy; obtain ⟨t, -, rfl⟩ := List.mem_map.mp hy; positivity)
    have e2 : ((arr p).map fun t => t ^ 2).sum = ‖p‖ ^ 2 := by
      rw [EuclideanSpace.norm_sq_eq, arr, List.map_ofFn, List.sum_ofFn]; simp
    rw [e2] at h2
    have h3 := (h2.mono h.eps_nonneg (j := 4) (by
      have : (n : ℝ) ≤ 3 := by exact_mod_cast hn
      simp; linarith)).abs_sub_le
    refine h3.trans (mul_le_mul_of_nonneg_right ?_ (abs_nonneg _))
    have := exp_eps_le2 h (k := 4) (by norm_num) (by linarith)
    linarith

theorem fit_const {u η : ℝ} (hu : 0 ≤ u) (hη : 0 ≤ η) (hu1 : 100 * u ≤ 1) :
    u + η * (1 + u) ≤ 2 * η + 8 * u ∧ 8 * u + η * (1 + 8 * u) ≤ 2 * η + 8 * u := by
  constructor <;> nlinarith

/-- The computed solution of the linear system. -/
theorem fit_stable [NumpyExt ℝ] [StableLstsq η] (h : StdRounding u fl) (hu : 100 * u ≤ 1) (hn : n ≤ 3) {P : List (E n)} {c : E n} {r σ : ℝ}
    (hr : 0 < r) (hσ : 0 < σ)
    (hmin : ∀ c' r', (P.map fun p => (dist p c ^ 2 - r ^ 2) ^ 2).sum ≤ (P.map fun p => (dist p c' ^ 2 - r' ^ 2) ^ 2).sum)
    (hcond : ∀ (d : E n) (t : ℝ), σ ^ 2 * (‖d‖ ^ 2 + t ^ 2) ≤ (P.map fun p => (2 * (inner ℝ p d : ℝ) + t) ^ 2).sum)
    (hτ : 4 * (2 * η + 8 * u) * fitScale P ≤ σ) (hcut : 4 * ((2 : ℝ)⁻¹ ^ 52 * (max P.length (n + 1) : ℕ) * fitScale P) ≤ σ) :
    ∃ c' k', NumpyExt.lstsq (@Sphere.fitMatrix ℝ (rounded fl) (rows P)) (@Sphere.fitRhs ℝ (rounded fl) (rows P)) = arr (join c' k') ∧
      ‖c' - c‖ ≤ fitShift (2 * η + 8 * u) σ P c r ∧ |k' - (r ^ 2 - ‖c‖ ^ 2)| ≤ fitShift (2 * η + 8 * u) σ P c r := by
  have hu0 := h.nonneg
  have hη : 0 ≤ η := StableLstsq.nonneg
  obtain ⟨B, hB, hBA⟩ := fitMatrix_rd h P
  obtain ⟨b, hb, hbb⟩ := fitRhs_rd h hn (by linarith) P
  have hS : 0 ≤ fitScale P := Real.sqrt_nonneg _
  have hM : 0 ≤ fitMoment P := Real.sqrt_nonneg _
  have hA : ∀ v, σ * ‖v‖ ≤ ‖mulE (fitA P) v‖ := by
    intro v
    obtain ⟨d, t, rfl⟩ := exists_join v
    refine le_of_sq_le_sq ?_ (norm_nonneg _)
    rw [mul_pow, norm_join_sq, norm_sq_list (f := fun p => 2 * inner ℝ p d + t) (fitA_apply P d t)]
    exact hcond d t
  obtain ⟨k1, k2⟩ := fit_const hu0 hη hu
  have hfr : ∀ X Y Z : Fin P.length → E (n + 1), frob (List.ofFn fun i => X i - Z i) ≤
      frob (List.ofFn fun i => X i - Y i) + frob (List.ofFn fun i => Y i - Z i) := by
    intro X Y Z
    have e : ∀ T : Fin P.length → E (n + 1), frob (List.ofFn T) = ‖(WithLp.toLp 2 T : PiLp 2 fun _ : Fin P.length => E (n + 1))‖ := by
      intro T
      rw [← Real.sqrt_sq (frob_nonneg _), frob_ofFn_sq', PiLp.norm_eq_of_L2]
    rw [e, e, e]
    have : (WithLp.toLp 2 fun i => X i - Z i : PiLp 2 fun _ : Fin P.length => E (n + 1)) =
        (WithLp.toLp 2 fun i => X i - Y i) + (WithLp.toLp 2 fun i => Y i - Z i) := by
      ext i; simp
    rw [this]
    exact norm_add_le _ _
  have hfr1 : ∀ X Y : Fin P.length → E (n + 1), frob (List.ofFn X) ≤ frob (List.ofFn fun i => X i - Y i) + frob (List.ofFn Y) := by
    intro X Y
    simpa using hfr X Y (fun _ => 0)
  have hBn : frob (List.ofFn B) ≤ (1 + u) * fitScale P := by
    have := hfr1 B (fitA P)
    rw [frob_fitA] at this
    linarith
  have hnear : ∀ A' : Fin P.length → E (n + 1), frob (List.ofFn fun i => A' i - B i) ≤ η * frob (List.ofFn B) →
      frob (List.ofFn fun i => A' i - fitA P i) ≤ (2 * η + 8 * u) * fitScale P := by
    intro A' hA'
    have h1 := hfr A' B (fitA P)
    have h2 := mul_le_mul_of_nonneg_left hBn hη
    have h3 := mul_le_mul_of_nonneg_right k1 hS
    linarith
  obtain ⟨A', b', x', h1, h2, h3, h4⟩ := StableLstsq.lstsq (η := η) B b (Nat.succ_ne_zero n) (by
    intro A' hA' v hv
    have hvp : 0 < ‖v‖ := norm_pos_iff.mpr hv
    have h5 := hnear A' hA'
    have h6 := hfr1 A' (fitA P)
    rw [frob_fitA] at h6
    have h7 : frob (List.ofFn A') ≤ 2 * fitScale P := by
      have hsig : σ ≤ fitScale P := by
        have e1 := hA (join 0 1)
        have e2 := norm_mulE_le (fitA P) (join 0 1)
        have e3 : ‖(join 0 1 : E (n + 1))‖ = 1 := by
          rw [← Real.sqrt_sq (norm_nonneg _), norm_join_sq]; simp
        rw [e3] at e1 e2
        rw [frob_fitA] at e2
        linarith
      nlinarith
    have h8 : ‖mulE (fitA P) v‖ - ‖mulE A' v‖ ≤ (2 * η + 8 * u) * fitScale P * ‖v‖ := by
      have e1 := norm_sub_norm_le (mulE (fitA P) v) (mulE A' v)
      rw [norm_sub_rev, ← mulE_sub_left] at e1
      exact e1.trans ((norm_mulE_le _ v).trans (mul_le_mul_of_nonneg_right h5 (norm_nonneg _)))
    have h9 := hA v
    have h10 : (2 : ℝ)⁻¹ ^ 52 * (max P.length (n + 1) : ℕ) * frob (List.ofFn A') ≤ σ / 2 := by
      have e1 : (0 : ℝ) ≤ (2 : ℝ)⁻¹ ^ 52 * (max P.length (n + 1) : ℕ) := by positivity
      have e2 := mul_le_mul_of_nonneg_left h7 e1
      linarith
    have h11 := mul_le_mul_of_nonneg_right h10 hvp.le
    have h12 := mul_le_mul_of_nonneg_right hτ hvp.le
    nlinarith [mul_pos hσ hvp])
  obtain ⟨c', k', rfl⟩ := exists_join x'
  have hb' : ‖b' - fitB P‖ ≤ (2 * η + 8 * u) * fitMoment P := by
    have e1 : ‖b' - fitB P‖ ≤ ‖b' - b‖ + ‖b - fitB P‖ := by
      rw [show b' - fitB P = (b' - b) + (b - fitB P) by abel]; exact norm_add_le _ _
    have e2 : ‖b‖ ≤ ‖b - fitB P‖ + ‖fitB P‖ := by
      conv_lhs => rw [show b = (b - fitB P) + fitB P by abel]
      exact norm_add_le _ _
    rw [norm_fitB] at e2
    have e3 : η * ‖b‖ ≤ η * ((1 + 8 * u) * fitMoment P) := mul_le_mul_of_nonneg_left (by linarith) hη
    have e4 := mul_le_mul_of_nonneg_right k2 hM
    linarith
  have hz := lstsq_perturb hσ hA (hnear A' h1) (by nlinarith) hb' (fit_min hr hmin) h3
  have hres : ‖fitB P - mulE (fitA P) (join c (r ^ 2 - ‖c‖ ^ 2))‖ = fitResidual P c r := norm_list (fit_res_apply P c r)
  have hnx : ‖join c (r ^ 2 - ‖c‖ ^ 2)‖ = √(‖c‖ ^ 2 + (r ^ 2 - ‖c‖ ^ 2) ^ 2) := by
    rw [← norm_join_sq, Real.sqrt_sq (norm_nonneg _)]
  rw [hres, hnx, join_sub] at hz
  have hZ : ‖join (c' - c) (k' - (r ^ 2 - ‖c‖ ^ 2))‖ ≤ fitShift (2 * η + 8 * u) σ P c r := by
    refine hz.trans (le_of_eq ?_)
    rw [fitShift]; ring
  have hsq := norm_join_sq (c' - c) (k' - (r ^ 2 - ‖c‖ ^ 2))
  refine ⟨c', k', by rw [hB, hb, h4], le_trans (le_of_sq_le_sq ?_ (norm_nonneg _)) hZ, le_trans (le_of_sq_le_sq ?_ (norm_nonneg _)) hZ⟩
  · rw [hsq]; have := sq_nonneg (k' - (r ^ 2 - ‖c‖ ^ 2)); linarith
  · rw [hsq, sq_abs]; have := sq_nonneg ‖c' - c‖; linarith

/-- The radicand. -/
theorem fit_radicand {c c' : E n} {r k' Z s : ℝ} (hu : 0 ≤ u) (hc : ‖c' - c‖ ≤ Z) (hk : |k' - (r ^ 2 - ‖c‖ ^ 2)| ≤ Z)
    (hs : |s - (k' + ‖c'‖ ^ 2)| ≤ 10 * u * (|k'| + ‖c'‖ ^ 2)) : |s - r ^ 2| ≤ fitShiftSq u Z c r := by
  have hZ : 0 ≤ Z := (norm_nonneg _).trans hc
  have h1 : ‖c'‖ ≤ ‖c‖ + Z := by
    have := norm_le_norm_add_norm_sub' c' c
    linarith
  have h2 : |k'| ≤ |r ^ 2 - ‖c‖ ^ 2| + Z := by
    have := abs_sub_abs_le_abs_sub k' (r ^ 2 - ‖c‖ ^ 2)
    linarith
  have h3 : |‖c'‖ ^ 2 - ‖c‖ ^ 2| ≤ Z * (2 * ‖c‖ + Z) := by
    have e1 := abs_norm_sub_norm_le c' c
    rw [show ‖c'‖ ^ 2 - ‖c‖ ^ 2 = (‖c'‖ - ‖c‖) * (‖c'‖ + ‖c‖) by ring, abs_mul]
    refine mul_le_mul (e1.trans hc) ?_ (abs_nonneg _) hZ
    rw [abs_of_nonneg (by positivity)]
    linarith
  have h4 : ‖c'‖ ^ 2 ≤ (‖c‖ + Z) ^ 2 := pow_le_pow_left₀ (norm_nonneg _) h1 2
  have h5 : |s - r ^ 2| ≤ |s - (k' + ‖c'‖ ^ 2)| + |k' - (r ^ 2 - ‖c‖ ^ 2)| + |‖c'‖ ^ 2 - ‖c‖ ^ 2| := by
    rw [show s - r ^ 2 = (s - (k' + ‖c'‖ ^ 2)) + (k' - (r ^ 2 - ‖c‖ ^ 2)) + (‖c'‖ ^ 2 - ‖c‖ ^ 2) by ring]
    exact abs_add_three _ _ _
  have h6 : 10 * u * (|k'| + ‖c'‖ ^ 2) ≤ 10 * u * (|r ^ 2 - ‖c‖ ^ 2| + Z + (‖c‖ + Z) ^ 2) :=
    mul_le_mul_of_nonneg_left (by linarith) (by positivity)
  rw [fitShiftSq]
  linarith

theorem fit_radius (h : StdRounding u fl) {r s W : ℝ} (hr : 0 < r) (hW : 2 * W ≤ r ^ 2) (hs : |s - r ^ 2| ≤ W) :
    0 < fl (√s) ∧ |fl (√s) - r| ≤ W / r + 2 * u * r := by
  have hu := h.nonneg
  have hs0 : 0 < s := by
    have := (abs_le.mp hs).1
    have : 0 < r ^ 2 := by positivity
    linarith
  have hsq : 0 < √s := Real.sqrt_pos.mpr hs0
  have h1 : |√s - r| ≤ W / r := by
    rw [le_div_iff₀ hr]
    have e1 : s - r ^ 2 = (√s - r) * (√s + r) := by
      have := Real.sq_sqrt hs0.le
      nlinarith
    rw [e1, abs_mul, abs_of_pos (by positivity : 0 < √s + r)] at hs
    have := abs_nonneg (√s - r)
    nlinarith
  refine ⟨(h.rp _).pos hsq, ?_⟩
  have h2 := fl_near h h1
  rw [abs_of_pos hr] at h2
  have h3 : W / r ≤ r := by rw [div_le_iff₀ hr]; nlinarith [abs_nonneg (s - r ^ 2)]
  nlinarith

/-- C118: `Circle.best_fit` under rounding.  Let the circle with center `c` and radius `r > 0` be the best one in exact arithmetic (it
minimises `Σ (|p - c|² - r²)²`), and `σ` a lower bound on the singular values of the system with the rows `(2p, 1)`.  If the points
pass the rank test, the system is well conditioned for the relative perturbation `τ = 2η + 8u`, and the error of the squared
radius does not exceed half of it, the computed circle has a center within `fitShift` of `c` and a radius within
`fitShiftSq / r + 2ur` of `r`. -/
theorem C118_circle_best_fit [NumpyExt ℝ] [StableLstsq η] (h : StdRounding u fl) (hu : 100 * u ≤ 1) {P : List (E 2)} {c : E 2} {r σ : ℝ}
    (hr : 0 < r) (hσ : 0 < σ)
    (hmin : ∀ c' r', (P.map fun p => (dist p c ^ 2 - r ^ 2) ^ 2).sum ≤ (P.map fun p => (dist p c' ^ 2 - r' ^ 2) ^ 2).sum)
    (hcond : ∀ (d : E 2) (t : ℝ), σ ^ 2 * (‖d‖ ^ 2 + t ^ 2) ≤ (P.map fun p => (2 * (inner ℝ p d : ℝ) + t) ^ 2).sum)
    (hτ : 4 * (2 * η + 8 * u) * fitScale P ≤ σ) (hcut : 4 * ((2 : ℝ)⁻¹ ^ 52 * (max P.length 3 : ℕ) * fitScale P) ≤ σ)
    (hlen : 3 ≤ P.length) (hrank : @Pts.affineRank ℝ (rounded fl) _ none (rows P) = .ok 2)
    (hW : 2 * fitShiftSq u (fitShift (2 * η + 8 * u) σ P c r) c r ≤ r ^ 2) :
    ∃ c' r', @Circle.bestFit ℝ (rounded fl) _ (rows P) = .ok ⟨arr c', r'⟩ ∧ 0 < r' ∧
      dist c' c ≤ fitShift (2 * η + 8 * u) σ P c r ∧
      |r' - r| ≤ fitShiftSq u (fitShift (2 * η + 8 * u) σ P c r) c r / r + 2 * u * r := by
  have hu0 := h.nonneg
  have hP : P ≠ [] := by rintro rfl; simp at hlen
  obtain ⟨c', k', h1, h2, h3⟩ := fit_stable (n := 2) h hu (by norm_num) hr hσ hmin hcond hτ hcut
  obtain ⟨s, hs⟩ : ∃ s, s = fl (fl (k' + fl (c' 0 * c' 0)) + fl (c' 1 * c' 1)) := ⟨_, rfl⟩
  have hs' : |s - (k' + ‖c'‖ ^ 2)| ≤ 10 * u * (|k'| + ‖c'‖ ^ 2) := by
    rw [hs, norm_sq2]
    have e0 := h.err (c' 0 * c' 0)
    have e1 := h.err (c' 1 * c' 1)
    have a0 : |c' 0 * c' 0| = c' 0 ^ 2 := by rw [← pow_two, abs_of_nonneg (sq_nonneg _)]
    have a1 : |c' 1 * c' 1| = c' 1 ^ 2 := by rw [← pow_two, abs_of_nonneg (sq_nonneg _)]
    rw [a0] at e0
    rw [a1] at e1
    obtain ⟨p, hp⟩ : ∃ p, p = c' 0 ^ 2 := ⟨_, rfl⟩
    obtain ⟨q, hq⟩ : ∃ q, q = c' 1 ^ 2 := ⟨_, rfl⟩
    have hp0 : 0 ≤ p := by rw [hp]; positivity
    have hq0 : 0 ≤ q := by rw [hq]; positivity
    rw [show c' 0 * c' 0 = p by rw [hp]; ring] at e0 ⊢
    rw [show c' 1 * c' 1 = q by rw [hq]; ring] at e1 ⊢
    rw [← hp] at e0 ⊢
    rw [← hq] at e1 ⊢
    have hk0 := abs_nonneg k'
    have e2 : |(k' + fl p) - (k' + p)| ≤ u * p := by rw [add_sub_add_left_eq_sub]; exact e0
    have e3 := fl_near h e2
    have e4 : |k' + p| ≤ |k'| + p := by
      have := abs_add_le k' p
      rwa [abs_of_nonneg hp0] at this
    obtain ⟨α, hα⟩ : ∃ α, α = u * p + u * (|k' + p| + u * p) := ⟨_, rfl⟩
    rw [← hα] at e3
    have e5 : |(fl (k' + fl p) + fl q) - (k' + (p + q))| ≤ α + u * q := by
      rw [show (fl (k' + fl p) + fl q) - (k' + (p + q)) = (fl (k' + fl p) - (k' + p)) + (fl q - q) by ring]
      exact (abs_add_le _ _).trans (add_le_add e3 e1)
    have e6 := fl_near h e5
    have e7 : |k' + (p + q)| ≤ |k'| + p + q := by
      have := abs_add_le k' (p + q)
      rw [abs_of_nonneg (by positivity : 0 ≤ p + q)] at this
      linarith
    have hαle : α ≤ 3 * u * (|k'| + p) := by
      rw [hα]
      have b1 : u * (u * p) ≤ u * p := mul_le_mul_of_nonneg_left (by nlinarith) hu0
      have b2 := mul_le_mul_of_nonneg_left e4 hu0
      nlinarith [mul_nonneg hu0 hk0, mul_nonneg hu0 hp0]
    have hβ : α + u * q ≤ 3 * u * (|k'| + p + q) := by nlinarith [mul_nonneg hu0 hq0]
    have hβ1 : α + u * q ≤ |k'| + p + q := by nlinarith
    have b3 : u * (|k' + (p + q)| + (α + u * q)) ≤ u * (2 * (|k'| + p + q)) := mul_le_mul_of_nonneg_left (by linarith) hu0
    have b4 : 0 ≤ u * (|k'| + p + q) := by positivity
    linarith
  have hrad := fit_radicand hu0 h2 h3 hs'
  obtain ⟨hpos, herr⟩ := fit_radius h hr hW hrad
  refine ⟨c', fl (√s), ?_, hpos, by rw [dist_eq_norm]; exact h2, herr⟩
  have h3' : ¬ (rows P).length < 3 := by simp [rows]; omega
  simp only [Circle.bestFit, newPoints_rd hP, rowDim_rows hP, ok_bind, h3', hrank, h1, arr_join, arr2]
  simp [sqrt_rd, add_rd, sq_rd]
  rw [← hs]
  have := circle_new_ok (fl := fl) c' hpos
  rwa [arr2] at this

theorem sphere_new_ok (o : E 3) {r : ℝ} (hr : 0 < r) : @Sphere.new ℝ (rounded fl) (arr o) r = .ok ⟨arr o, r⟩ := by
  simp only [Sphere.new, newBaseSphere, le_rd, zero_rd, not_le.mpr hr, decide_false, Bool.false_eq_true, if_false, new1D_rd, ok_bind,
    pure_ok, length_arr, ne_eq, not_true_eq_false]

/-- C118: `Sphere.best_fit` under rounding, likewise. -/
theorem C118_sphere_best_fit [NumpyExt ℝ] [StableLstsq η] (h : StdRounding u fl) (hu : 100 * u ≤ 1) {P : List (E 3)} {c : E 3} {r σ : ℝ}
    (hr : 0 < r) (hσ : 0 < σ)
    (hmin : ∀ c' r', (P.map fun p => (dist p c ^ 2 - r ^ 2) ^ 2).sum ≤ (P.map fun p => (dist p c' ^ 2 - r' ^ 2) ^ 2).sum)
    (hcond : ∀ (d : E 3) (t : ℝ), σ ^ 2 * (‖d‖ ^ 2 + t ^ 2) ≤ (P.map fun p => (2 * (inner ℝ p d : ℝ) + t) ^ 2).sum)
    (hτ : 4 * (2 * η + 8 * u) * fitScale P ≤ σ) (hcut : 4 * ((2 : ℝ)⁻¹ ^ 52 * (max P.length 4 : ℕ) * fitScale P) ≤ σ)
    (hlen : 4 ≤ P.length) (hrank : @Pts.affineRank ℝ (rounded fl) _ none (rows P) = .ok 3)
    (hW : 2 * fitShiftSq u (fitShift (2 * η + 8 * u) σ P c r) c r ≤ r ^ 2) :
    ∃ c' r', @Sphere.bestFit ℝ (rounded fl) _ (rows P) = .ok ⟨arr c', r'⟩ ∧ 0 < r' ∧
      dist c' c ≤ fitShift (2 * η + 8 * u) σ P c r ∧
      |r' - r| ≤ fitShiftSq u (fitShift (2 * η + 8 * u) σ P c r) c r / r + 2 * u * r := by
  have hu0 := h.nonneg
  have hP : P ≠ [] := by rintro rfl; simp at hlen
  obtain ⟨c', k', h1, h2, h3⟩ := fit_stable (n := 3) h hu (by norm_num) hr hσ hmin hcond hτ hcut
  obtain ⟨s, hs⟩ : ∃ s, s = fl (@dotv ℝ (rounded fl) (arr c') (arr c') + k') := ⟨_, rfl⟩
  have hs' : |s - (k' + ‖c'‖ ^ 2)| ≤ 10 * u * (|k'| + ‖c'‖ ^ 2) := by
    rw [hs]
    have e0 := ((dotv_self_rp h le_rfl (CRP.refl (eps u) c')).mono h.eps_nonneg (j := 4) (by norm_num)).abs_sub_le
    have e1 := exp_eps_le2 h (k := 4) (by norm_num) (by linarith)
    obtain ⟨q, hq⟩ : ∃ q, q = ‖c'‖ ^ 2 := ⟨_, rfl⟩
    have hq0 : 0 ≤ q := by rw [hq]; positivity
    rw [← hq, abs_of_nonneg hq0] at e0
    rw [← hq]
    have e2 : |@dotv ℝ (rounded fl) (arr c') (arr c') + k' - (k' + q)| ≤ 8 * u * q := by
      rw [show @dotv ℝ (rounded fl) (arr c') (arr c') + k' - (k' + q) = @dotv ℝ (rounded fl) (arr c') (arr c') - q by ring]
      exact e0.trans (mul_le_mul_of_nonneg_right (by linarith) hq0)
    have e3 := fl_near h e2
    have hk0 := abs_nonneg k'
    have e4 : |k' + q| ≤ |k'| + q := by
      have := abs_add_le k' q
      rwa [abs_of_nonneg hq0] at this
    have e5 : 8 * u * q ≤ q := by nlinarith
    have e6 : u * (|k' + q| + 8 * u * q) ≤ u * (|k'| + 2 * q) := mul_le_mul_of_nonneg_left (by linarith) hu0
    nlinarith [mul_nonneg hu0 hk0]
  have hrad := fit_radicand hu0 h2 h3 hs'
  obtain ⟨hpos, herr⟩ := fit_radius h hr hW hrad
  refine ⟨c', fl (√s), ?_, hpos, by rw [dist_eq_norm]; exact h2, herr⟩
  have h3' : ¬ (rows P).length < 4 := by simp [rows]; omega
  have ht : (arr c' ++ [k']).take 3 = arr c' := by simp [arr3]
  have hk : (arr c' ++ [k']).getD 3 0 = k' := by simp [arr3]
  simp only [Sphere.bestFit, newPoints_rd hP, rowDim_rows hP, ok_bind, h3', hrank, h1, arr_join, ht, zero_rd, hk]
  simp only [ne_eq, not_true_eq_false, if_false, sqrt_rd, add_rd]
  rw [← hs]
  exact sphere_new_ok c' hpos

/-- In binary64 the circle through `(0, 0)`, `(4, 0)`, `(0, 3)` is found to within `10⁻¹¹`. -/
example : ∃ (ext : NumpyExt ℝ) (c' : E 2) (r' : ℝ),
    @Circle.bestFit ℝ (rounded (leftToRight (roundNearest 53))) ext (rows [vec2 0 0, vec2 4 0, vec2 0 3]) = .ok ⟨arr c', r'⟩ ∧
    dist c' (vec2 2 (3 / 2)) ≤ 1 / 10 ^ 11 ∧ |r' - 5 / 2| ≤ 1 / 10 ^ 11 := by
  obtain ⟨ext, hl, -⟩ := exists_lawfulNumpy fun _ x => x
  have := @StableLstsq.of_lawful ext hl
  have := @StableNumpy.of_lawful ext hl
  have hs : StdRounding ((2 : ℝ)⁻¹ ^ 53) (leftToRight (roundNearest 53)) := by
    have := std53
    rwa [show (2 : ℝ) ^ (-(53 : ℕ) : ℤ) = (2 : ℝ)⁻¹ ^ 53 by norm_num] at this
  obtain ⟨P, hP⟩ : ∃ P : List (E 2), P = [vec2 0 0, vec2 4 0, vec2 0 3] := ⟨_, rfl⟩
  have hPne : P ≠ [] := by simp [hP]
  have hrank : @Pts.affineRank ℝ (rounded (leftToRight (roundNearest 53))) ext none (rows P) = .ok 2 := by
    obtain ⟨r, t, s', h1, h2, -, h3, -, -, h4⟩ := affineRank_rd_core (η := 0) hs hPne none
    have ht : 0 ≤ t := by
      have := h3 rfl
      simp only [zero_mul, abs_nonpos_iff, sub_eq_zero] at this
      rw [this]; positivity
    obtain ⟨U, hU, -⟩ := (h4 ht).2
    have hle : r ≤ 2 := by
      have := Submodule.finrank_le U
      rw [hU] at this
      simpa using this
    have hlt : triangleNoise ((2 : ℝ)⁻¹ ^ 53) 0 (vec2 0 0) (vec2 4 0) (vec2 0 3) < 1 := lt_of_le_of_lt noise_345.2 (by norm_num)
    have h5 := C105_triangle (η := 0) hs (fun l => hlt.trans (far_345 l).1) (fun l => hlt.trans (far_345 l).2.1)
      (fun l => hlt.trans (far_345 l).2.2)
    have hrows : [arr (vec2 0 0), arr (vec2 4 0), arr (vec2 0 3)] = rows P := by rw [hP]; rfl
    simp only [Triangle.new, new1D_rd, ok_bind, length_arr, decide_true, Bool.and_self, Bool.not_true, Bool.false_eq_true, if_false,
      hrows, newPoints_rd hPne, Pts.areCollinear, h1, pure_ok] at h5
    have : ¬ r ≤ 1 := by intro hr; simp [hr] at h5
    rw [h1]; congr 1; omega
  have hc2 : ‖vec2 2 (3 / 2)‖ ^ 2 = 25 / 4 := by rw [norm_sq2]; norm_num [vec2]
  have hc : ‖vec2 2 (3 / 2)‖ = 5 / 2 := by
    rw [← Real.sqrt_sq (norm_nonneg _), hc2, show (25 / 4 : ℝ) = (5 / 2) ^ 2 by norm_num, Real.sqrt_sq (by norm_num)]
  have hd : ∀ p ∈ P, dist p (vec2 2 (3 / 2)) ^ 2 = (5 / 2 : ℝ) ^ 2 := by
    intro p hp
    simp only [hP, List.mem_cons, List.not_mem_nil, or_false] at hp
    rw [dist_eq_norm, norm_sq2]
    rcases hp with rfl | rfl | rfl <;> norm_num [vec2]
  have hres : (P.map fun p => (dist p (vec2 2 (3 / 2)) ^ 2 - (5 / 2 : ℝ) ^ 2) ^ 2).sum = 0 := by
    rw [List.map_congr_left (g := fun _ => (0 : ℝ)) (fun p hp => by rw [hd p hp]; ring)]; simp
  have hS : fitScale P ≤ 11 := by
    rw [fitScale, Real.sqrt_le_left (by norm_num)]
    simp only [hP, List.map_cons, List.map_nil, List.sum_cons, List.sum_nil, norm_sq2]; norm_num [vec2]
  have hS0 : 0 ≤ fitScale P := Real.sqrt_nonneg _
  have hM : fitMoment P ≤ 19 := by
    rw [fitMoment, Real.sqrt_le_left (by norm_num)]
    have e : ∀ p : E 2, ‖p‖ ^ 4 = (‖p‖ ^ 2) ^ 2 := fun p => by ring
    simp only [hP, List.map_cons, List.map_nil, List.sum_cons, List.sum_nil, e, norm_sq2]; norm_num [vec2]
  have hM0 : 0 ≤ fitMoment P := Real.sqrt_nonneg _
  have hZ : fitShift (2 * 0 + 8 * (2 : ℝ)⁻¹ ^ 53) (1 / 2) P (vec2 2 (3 / 2)) (5 / 2) ≤ 1 / 10 ^ 12 := by
    rw [fitShift, fitResidual, hres, Real.sqrt_zero, hc2, show (25 / 4 + ((5 / 2) ^ 2 - 25 / 4) ^ 2 : ℝ) = (5 / 2) ^ 2 by norm_num,
      Real.sqrt_sq (by norm_num)]
    norm_num
    linarith
  have hZ0 : 0 ≤ fitShift (2 * 0 + 8 * (2 : ℝ)⁻¹ ^ 53) (1 / 2) P (vec2 2 (3 / 2)) (5 / 2) := by
    rw [fitShift, fitResidual]; positivity
  obtain ⟨Z, hZe⟩ : ∃ Z, Z = fitShift (2 * 0 + 8 * (2 : ℝ)⁻¹ ^ 53) (1 / 2) P (vec2 2 (3 / 2)) (5 / 2) := ⟨_, rfl⟩
  have hW : fitShiftSq ((2 : ℝ)⁻¹ ^ 53) Z (vec2 2 (3 / 2)) (5 / 2) ≤ 8 / 10 ^ 12 := by
    rw [← hZe] at hZ hZ0
    rw [fitShiftSq, hc, show ((5 / 2) ^ 2 - (5 / 2) ^ 2 : ℝ) = 0 by norm_num, abs_zero]
    norm_num at hZ ⊢
    nlinarith
  obtain ⟨c', r', h1, -, h2, h3⟩ := C118_circle_best_fit (η := 0) hs (by norm_num) (P := P) (c := vec2 2 (3 / 2)) (r := 5 / 2) (σ := 1 / 2)
    (by norm_num) (by norm_num)
    (fun c' r' => by rw [hres]; exact List.sum_nonneg (by intro y hy; obtain ⟨z, -, rfl⟩ := List.mem_map.mp hy; positivity))
    (by
      intro d t
      simp only [hP, List.map_cons, List.map_nil, List.sum_cons, List.sum_nil, inner2, norm_sq2]
      simp [vec2]
      nlinarith [sq_nonneg (8 * d 0 * 4 + 5 * t), sq_nonneg (6 * d 1 * 4 + 5 * t), sq_nonneg (d 0), sq_nonneg (d 1), sq_nonneg t])
    (by norm_num; linarith) (by simp only [hP, List.length_cons, List.length_nil] at hS ⊢; norm_num; linarith) (by simp [hP]) hrank (by
      rw [← hZe]; norm_num at hW ⊢; linarith)
  rw [← hZe] at h2 h3 hZ
  rw [hP] at h1
  refine ⟨ext, c', r', h1, h2.trans (hZ.trans (by norm_num)), h3.trans ?_⟩
  norm_num at hW ⊢
  linarith

/-- In binary64 the unit sphere through `(±1, 0, 0)`, `(0, 1, 0)`, `(0, 0, 1)` is found to within `10⁻¹³`. -/
example : ∃ (ext : NumpyExt ℝ) (c' : E 3) (r' : ℝ),
    @Sphere.bestFit ℝ (rounded (leftToRight (roundNearest 53))) ext (rows [vec3 1 0 0, vec3 (-1) 0 0, vec3 0 1 0, vec3 0 0 1]) =
      .ok ⟨arr c', r'⟩ ∧ dist c' 0 ≤ 1 / 10 ^ 13 ∧ |r' - 1| ≤ 1 / 10 ^ 12 := by
  obtain ⟨e₀, hl, -⟩ := exists_lawfulNumpy fun _ x => x
  let ext : NumpyExt ℝ := ⟨fun _ _ => 3, e₀.svd, e₀.solve, e₀.lstsq, e₀.minimizePowell⟩
  have hst : @StableLstsq 0 ext := ⟨le_rfl, (@StableLstsq.of_lawful e₀ hl).lstsq⟩
  have hs : StdRounding ((2 : ℝ)⁻¹ ^ 53) (leftToRight (roundNearest 53)) := by
    have := std53
    rwa [show (2 : ℝ) ^ (-(53 : ℕ) : ℤ) = (2 : ℝ)⁻¹ ^ 53 by norm_num] at this
  obtain ⟨P, hP⟩ : ∃ P : List (E 3), P = [vec3 1 0 0, vec3 (-1) 0 0, vec3 0 1 0, vec3 0 0 1] := ⟨_, rfl⟩
  have hPne : P ≠ [] := by simp [hP]
  have hrank : @Pts.affineRank ℝ (rounded (leftToRight (roundNearest 53))) ext none (rows P) = .ok 3 := by
    obtain ⟨Q, hQ1, hQ2, hQ3⟩ := exists_unique_rows P
    have hQ : Q ≠ [] := by
      rintro rfl
      obtain ⟨x, hx⟩ := List.exists_mem_of_ne_nil P hPne
      exact absurd ((hQ3 x).mpr hx) (by simp)
    have hm : Q.length ≠ 0 := by simpa using hQ
    have hc : centroidE Q = (Q.length : ℝ)⁻¹ • ∑ i, Q.get i := by
      rw [centroidE, ← List.sum_ofFn, List.ofFn_get]
    obtain ⟨C, c', hC1, hC2, -⟩ := meanCenter_rd hs hm Q.get hc
    rw [List.ofFn_get] at hC1
    simp only [Pts.affineRank, Pts.unique, npUnique_rounded, hQ1, newPoints_rd hQ, ok_bind, hC1, pure_ok]
    rfl
  have hd : ∀ p ∈ P, dist p 0 ^ 2 = (1 : ℝ) ^ 2 := by
    intro p hp
    simp only [hP, List.mem_cons, List.not_mem_nil, or_false] at hp
    rw [dist_zero_right, norm_sq3]
    rcases hp with rfl | rfl | rfl | rfl <;> (simp only [vec3, PiLp.toLp_apply, Matrix.cons_val]; norm_num)
  have hres : (P.map fun p => (dist p 0 ^ 2 - (1 : ℝ) ^ 2) ^ 2).sum = 0 := by
    rw [List.map_congr_left (g := fun _ => (0 : ℝ)) (fun p hp => by rw [hd p hp]; ring)]; simp
  have hS : fitScale P ≤ 5 := by
    rw [fitScale, Real.sqrt_le_left (by norm_num)]
    simp only [hP, List.map_cons, List.map_nil, List.sum_cons, List.sum_nil, norm_sq3]; simp only [vec3, PiLp.toLp_apply, Matrix.cons_val]; norm_num
  have hS0 : 0 ≤ fitScale P := Real.sqrt_nonneg _
  have hM : fitMoment P ≤ 2 := by
    rw [fitMoment, Real.sqrt_le_left (by norm_num)]
    have e : ∀ p : E 3, ‖p‖ ^ 4 = (‖p‖ ^ 2) ^ 2 := fun p => by ring
    simp only [hP, List.map_cons, List.map_nil, List.sum_cons, List.sum_nil, e, norm_sq3]; simp only [vec3, PiLp.toLp_apply, Matrix.cons_val]; norm_num
  have hM0 : 0 ≤ fitMoment P := Real.sqrt_nonneg _
  have hZ : fitShift (2 * 0 + 8 * (2 : ℝ)⁻¹ ^ 53) 1 P 0 1 ≤ 1 / 10 ^ 13 := by
    rw [fitShift, fitResidual, hres, Real.sqrt_zero, norm_zero]
    norm_num
    linarith
  have hZ0 : 0 ≤ fitShift (2 * 0 + 8 * (2 : ℝ)⁻¹ ^ 53) 1 P 0 1 := by
    rw [fitShift, fitResidual]; positivity
  obtain ⟨Z, hZe⟩ : ∃ Z, Z = fitShift (2 * 0 + 8 * (2 : ℝ)⁻¹ ^ 53) 1 P 0 1 := ⟨_, rfl⟩
  have hW : fitShiftSq ((2 : ℝ)⁻¹ ^ 53) Z (0 : E 3) 1 ≤ 5 / 10 ^ 13 := by
    rw [← hZe] at hZ hZ0
    rw [fitShiftSq, norm_zero]
    norm_num at hZ ⊢
    nlinarith
  obtain ⟨c', r', h1, -, h2, h3⟩ := @C118_sphere_best_fit _ 0 _ ext hst hs (by norm_num) P 0 1 1
    (by norm_num) (by norm_num)
    (fun c' r' => by rw [hres]; exact List.sum_nonneg (by intro y hy; obtain ⟨z, -, rfl⟩ := List.mem_map.mp hy; positivity))
    (by
      intro d t
      simp only [hP, List.map_cons, List.map_nil, List.sum_cons, List.sum_nil, inner3, norm_sq3]
      simp [vec3]
      nlinarith [sq_nonneg (4 * d 1 + 3 * t), sq_nonneg (4 * d 2 + 3 * t), sq_nonneg (d 0), sq_nonneg (d 1), sq_nonneg (d 2), sq_nonneg t])
    (by norm_num; linarith) (by simp only [hP, List.length_cons, List.length_nil] at hS ⊢; norm_num; linarith) (by simp [hP]) hrank (by
      rw [← hZe]; norm_num at hW ⊢; linarith)
  rw [← hZe] at h2 h3 hZ
  rw [hP] at h1
  refine ⟨ext, c', r', h1, h2.trans hZ, h3.trans ?_⟩
  norm_num at hW ⊢
  linarith

end SkSpatial
