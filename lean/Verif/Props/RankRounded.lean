import Verif.Spec.Stable
import Verif.Props.Order
import Verif.Props.RankDefault
import Verif.Props.Rounding10
import Verif.Lemmas.Svd
import Mathlib.Analysis.InnerProductSpace.PiL2
import Mathlib.Algebra.Order.Chebyshev
/-!
# C105: rank decisions under rounding

`affine_rank` and the predicates built on it when the centring is rounded and `matrix_rank` is only backward stable.
-/

namespace SkSpatial
open Finset StdRounding

variable {n : ℕ} {u η : ℝ} {fl : Arith}

theorem frob_ofFn {m : ℕ} (C : Fin m → E n) :
    frob (List.ofFn C) = ‖(WithLp.toLp 2 C : PiLp 2 fun _ : Fin m => E n)‖ := by
  rw [frob, PiLp.norm_eq_of_L2, List.map_ofFn, List.sum_ofFn]
  rfl

theorem zipWith_ofFn' {m : ℕ} {A' : List (E n)} (h : A'.length = m) (C : Fin m → E n) :
    List.zipWith (· - ·) A' (List.ofFn C) = List.ofFn fun i => A'.get (i.cast h.symm) - C i := by
  apply List.ext_getElem
  · simp [h]
  · intro i h1 h2; simp

theorem frob_self (A : List (E n)) : frob (List.zipWith (· - ·) A A) = 0 := by
  have : List.zipWith (· - ·) A A = A.map fun _ => (0 : E n) := by
    induction A with
    | nil => rfl
    | cons a l ih => simp [ih]
  rw [this, frob]
  simp

theorem StableNumpy.of_lawful [NumpyExt ℝ] [LawfulNumpy] : StableNumpy 0 where
  nonneg := le_rfl
  lt_one := one_pos
  svd A full hA hn := by
    obtain ⟨W, σ, V, h1, h2, h3, h4, h5, h6, h7, h8⟩ := LawfulNumpy.svd A full hA hn
    exact ⟨A, W, W, σ, V, V, rfl, by rw [frob_self, zero_mul], h1, h2, h3, h4, h5, by simp, by simp, h6, h7, h8⟩
  matrixRank A tol hA hn := by
    obtain ⟨usv, h1, h2⟩ := LawfulNumpy.matrixRank A tol hA hn
    refine ⟨A, usv, _, rfl, ?_, h1, ?_, h2⟩
    · rw [frob_self, zero_mul]
    · cases tol <;> simp

/-- The root spread in the direction `x` is Lipschitz in the matrix. -/
theorem rootSpread_le {m : ℕ} (A B : Fin m → E n) (x : E n) :
    √(∑ i, (inner ℝ (A i) x : ℝ) ^ 2) ≤ √(∑ i, (inner ℝ (B i) x : ℝ) ^ 2) +
      ‖(WithLp.toLp 2 fun i => A i - B i : PiLp 2 fun _ : Fin m => E n)‖ * ‖x‖ := by
  obtain ⟨f, hf⟩ : ∃ f : (Fin m → E n) → E m, ∀ A, f A = WithLp.toLp 2 fun i => (inner ℝ (A i) x : ℝ) := ⟨_, fun _ => rfl⟩
  have hn : ∀ A, ‖f A‖ = √(∑ i, (inner ℝ (A i) x : ℝ) ^ 2) := by
    intro A; rw [hf, EuclideanSpace.norm_eq]; simp
  rw [← hn, ← hn]
  have h1 : f A = f B + f (fun i => A i - B i) := by
    rw [hf, hf, hf]; ext i; simp [inner_sub_left]
  rw [h1]
  refine (norm_add_le _ _).trans (add_le_add_right ?_ _)
  rw [hn, PiLp.norm_eq_of_L2, ← Real.sqrt_sq (norm_nonneg x), ← Real.sqrt_mul (by positivity), Finset.sum_mul]
  refine Real.sqrt_le_sqrt (Finset.sum_le_sum fun i _ => ?_)
  rw [← mul_pow]
  exact sq_le_sq' (neg_le_of_abs_le (abs_real_inner_le_norm _ _)) (le_of_abs_le (abs_real_inner_le_norm _ _))

theorem Dec.top {A : List (E n)} {W : ℕ → E A.length} {σ : ℕ → ℝ} {V : ℕ → E n} (hd : Dec A W σ V)
    (hpos : 0 < min A.length n) :
    ‖V 0‖ = 1 ∧ √(∑ i, (inner ℝ (A.get i) (V 0) : ℝ) ^ 2) = σ 0 ∧
      ∀ x : E n, ‖x‖ = 1 → √(∑ i, (inner ℝ (A.get i) x : ℝ) ^ 2) ≤ σ 0 := by
  refine ⟨hd.hV.1 ⟨0, hpos⟩, ?_, fun x hx => ?_⟩
  · rw [hd.sum_inner_sq, sum_eq_single 0]
    · rw [hd.inner_V hpos hpos]; simp [Real.sqrt_sq (hd.nonneg 0)]
    · intro b hb hb0
      rw [hd.inner_V (mem_range.mp hb) hpos]; simp [hb0]
    · intro h; exact absurd (mem_range.mpr hpos) h
  · refine Real.sqrt_le_iff.mpr ⟨hd.nonneg 0, ?_⟩
    rw [hd.sum_inner_sq]
    calc ∑ l ∈ range _, σ l ^ 2 * (inner ℝ (V l) x : ℝ) ^ 2
        ≤ ∑ l ∈ range (min A.length n), σ 0 ^ 2 * (inner ℝ (V l) x : ℝ) ^ 2 := by
          refine sum_le_sum fun l _ => mul_le_mul_of_nonneg_right ?_ (sq_nonneg _)
          exact pow_le_pow_left₀ (hd.nonneg l) (hd.anti (Nat.zero_le l)) 2
      _ = σ 0 ^ 2 * ∑ l ∈ range (min A.length n), (inner ℝ (V l) x : ℝ) ^ 2 := by rw [mul_sum]
      _ ≤ σ 0 ^ 2 * 1 := by
          refine mul_le_mul_of_nonneg_left ?_ (sq_nonneg _)
          have := hd.bessel x
          rwa [hx, one_pow] at this
      _ = σ 0 ^ 2 := mul_one _

/-- Two perturbations of a matrix in a row. -/
theorem near_trans (hη : 0 ≤ η) {m : ℕ} {A' : List (E n)} (hlen : A'.length = m) {C A : Fin m → E n} {δ f : ℝ}
    (hfr : frob (List.zipWith (· - ·) A' (List.ofFn C)) ≤ η * frob (List.ofFn C))
    (hδ : ‖(WithLp.toLp 2 fun i => C i - A i : PiLp 2 fun _ : Fin m => E n)‖ ≤ δ)
    (hf : ‖(WithLp.toLp 2 A : PiLp 2 fun _ : Fin m => E n)‖ ≤ f) :
    ‖(WithLp.toLp 2 fun i => A'.get (i.cast hlen.symm) - A i : PiLp 2 fun _ : Fin m => E n)‖ ≤ η * (f + δ) + δ := by
  rw [zipWith_ofFn' hlen, frob_ofFn, frob_ofFn] at hfr
  have e1 : (WithLp.toLp 2 fun i => A'.get (i.cast hlen.symm) - A i : PiLp 2 fun _ : Fin m => E n) =
      (WithLp.toLp 2 fun i => A'.get (i.cast hlen.symm) - C i) + WithLp.toLp 2 fun i => C i - A i := by
    ext i; simp
  have e2 : (WithLp.toLp 2 C : PiLp 2 fun _ : Fin m => E n) = (WithLp.toLp 2 A) + WithLp.toLp 2 fun i => C i - A i := by
    ext i; simp
  rw [e1]
  refine (norm_add_le _ _).trans (add_le_add (hfr.trans (mul_le_mul_of_nonneg_left ?_ hη)) hδ)
  rw [e2]
  exact (norm_add_le _ _).trans (add_le_add hf hδ)

/-- `matrix_rank` of a matrix `C` near `A`. -/
theorem rank_core [NumpyExt ℝ] [hS : StableNumpy η] {m : ℕ} (hm : m ≠ 0) (hn : n ≠ 0) (C A : Fin m → E n) (tol : Option ℝ)
    {δ f : ℝ} (hδ : ‖(WithLp.toLp 2 fun i => C i - A i : PiLp 2 fun _ : Fin m => E n)‖ ≤ δ)
    (hf : ‖(WithLp.toLp 2 A : PiLp 2 fun _ : Fin m => E n)‖ ≤ f) :
    ∃ (t s' : ℝ), 0 ≤ s' ∧ (∀ s, tol = some s → t = s) ∧
      (tol = none → |t - s' * (max m n : ℕ) * (2 : ℝ)⁻¹ ^ 52| ≤ η * (s' * (max m n : ℕ) * (2 : ℝ)⁻¹ ^ 52)) ∧
      (∀ x : E n, ‖x‖ = 1 → √(∑ i, (inner ℝ (A i) x : ℝ) ^ 2) ≤ s' + (η * (f + δ) + δ)) ∧
      (∃ x : E n, ‖x‖ = 1 ∧ s' ≤ √(∑ i, (inner ℝ (A i) x : ℝ) ^ 2) + (η * (f + δ) + δ)) ∧
      (0 ≤ t →
        (∀ U : Submodule ℝ (E n), (∀ x ∈ U, x ≠ 0 →
          (t + (η * (f + δ) + δ)) ^ 2 * ‖x‖ ^ 2 < ∑ i, (inner ℝ (A i) x : ℝ) ^ 2) →
            Module.finrank ℝ U ≤ NumpyExt.matrixRank tol (rows (List.ofFn C))) ∧
        ∃ U : Submodule ℝ (E n), Module.finrank ℝ U = NumpyExt.matrixRank tol (rows (List.ofFn C)) ∧
          ∀ x ∈ U, x ≠ 0 → t * ‖x‖ < √(∑ i, (inner ℝ (A i) x : ℝ) ^ 2) + (η * (f + δ) + δ) * ‖x‖) := by
  have hη := hS.nonneg
  obtain ⟨A', usv, t, hl, hfr, hsvd, ht, hr⟩ := hS.matrixRank (List.ofFn C) tol (by simpa using hm) hn
  obtain ⟨W, σ, V, hd, -, -, hs, -⟩ := hsvd.dec
  have hlen : A'.length = m := by rw [hl, List.length_ofFn]
  obtain ⟨B, hB⟩ : ∃ B : Fin m → E n, ∀ i, B i = A'.get (i.cast hlen.symm) := ⟨_, fun _ => rfl⟩
  have hBsum : ∀ x : E n, ∑ i, (inner ℝ (A'.get i) x : ℝ) ^ 2 = ∑ i, (inner ℝ (B i) x : ℝ) ^ 2 := by
    intro x
    rw [← (finCongr hlen.symm).sum_comp]
    refine sum_congr rfl fun i _ => ?_
    rw [hB]; rfl
  have hAB : ‖(WithLp.toLp 2 fun i => B i - A i : PiLp 2 fun _ : Fin m => E n)‖ ≤ η * (f + δ) + δ := by
    simp only [hB]
    exact near_trans hη hlen hfr hδ hf
  obtain ⟨e, he⟩ : ∃ e, e = η * (f + δ) + δ := ⟨_, rfl⟩
  rw [← he] at hAB ⊢
  have hBA : ‖(WithLp.toLp 2 fun i => A i - B i : PiLp 2 fun _ : Fin m => E n)‖ ≤ e := by
    have e1 : (WithLp.toLp 2 fun i => A i - B i : PiLp 2 fun _ : Fin m => E n) = -(WithLp.toLp 2 fun i => B i - A i) := by
      ext i; simp
    rw [e1, norm_neg]; exact hAB
  have h1 : ∀ x : E n, √(∑ i, (inner ℝ (A i) x : ℝ) ^ 2) ≤ √(∑ i, (inner ℝ (B i) x : ℝ) ^ 2) + e * ‖x‖ := fun x =>
    (rootSpread_le A B x).trans (add_le_add_right (mul_le_mul_of_nonneg_right hBA (norm_nonneg _)) _)
  have h2 : ∀ x : E n, √(∑ i, (inner ℝ (B i) x : ℝ) ^ 2) ≤ √(∑ i, (inner ℝ (A i) x : ℝ) ^ 2) + e * ‖x‖ := fun x =>
    (rootSpread_le B A x).trans (add_le_add_right (mul_le_mul_of_nonneg_right hAB (norm_nonneg _)) _)
  have hpos : 0 < min A'.length n := by rw [hlen]; omega
  obtain ⟨hV, htop, hmax⟩ := hd.top hpos
  simp only [hBsum] at htop hmax
  rw [hs, countP_range_map] at hr
  have hhead : rankTol (List.ofFn C).length n usv.2.1 = σ 0 * (max m n : ℕ) * (2 : ℝ)⁻¹ ^ 52 := by
    obtain ⟨k, hk⟩ := Nat.exists_eq_succ_of_ne_zero hpos.ne'
    rw [rankTol, hs, hk, List.length_ofFn, List.range_succ_eq_map]
    simp
  have hge : 0 ≤ e := (norm_nonneg _).trans hAB
  refine ⟨t, σ 0, hd.nonneg 0, ?_, ?_, fun x hx => ?_, ⟨V 0, hV, ?_⟩, fun ht0 => ⟨fun U hU => ?_, ?_⟩⟩
  · rintro s rfl; exact ht
  · rintro rfl; rw [hhead] at ht; exact ht
  · have := h1 x
    rw [hx, mul_one] at this
    linarith [hmax x hx]
  · have := h2 (V 0)
    rw [hV, mul_one, htop] at this
    exact this
  · rw [hr, hd.le_cnt_iff ht0]
    refine ⟨U, rfl, fun x hx hx0 => ?_⟩
    rw [hBsum]
    have h3 := Real.lt_sqrt_of_sq_lt (by rw [mul_pow]; exact hU x hx hx0 : ((t + e) * ‖x‖) ^ 2 < _)
    have h4 : t * ‖x‖ < √(∑ i, (inner ℝ (B i) x : ℝ) ^ 2) := by
      have := h1 x
      rw [add_mul] at h3
      linarith
    rw [← mul_pow]
    exact (Real.lt_sqrt (by positivity)).mp h4
  · obtain ⟨U, hU, hx⟩ := (hd.le_cnt_iff ht0 _).mp (le_refl (Dec.cnt (min A'.length n) σ t))
    refine ⟨U, by rw [hU, hr], fun x hxU hx0 => ?_⟩
    have h3 := hx x hxU hx0
    rw [hBsum, ← mul_pow] at h3
    exact lt_of_lt_of_le (Real.lt_sqrt_of_sq_lt h3) (h2 x)

noncomputable abbrev fnorm {m : ℕ} (A : Fin m → E n) : ℝ := ‖(WithLp.toLp 2 A : PiLp 2 fun _ : Fin m => E n)‖

theorem fnorm_sq {m : ℕ} (A : Fin m → E n) : fnorm A ^ 2 = ∑ i, ‖A i‖ ^ 2 := by
  rw [fnorm, PiLp.norm_sq_eq_of_L2]

theorem fnorm_add_le {m : ℕ} (A B : Fin m → E n) : fnorm (fun i => A i + B i) ≤ fnorm A + fnorm B := by
  have : (WithLp.toLp 2 fun i => A i + B i : PiLp 2 fun _ : Fin m => E n) = WithLp.toLp 2 A + WithLp.toLp 2 B := by ext i; simp
  rw [fnorm, this]
  exact norm_add_le _ _

theorem fnorm_le_mul {m : ℕ} {A B : Fin m → E n} {k : ℝ} (hk : 0 ≤ k) (h : ∀ i, ‖A i‖ ≤ k * ‖B i‖) :
    fnorm A ≤ k * fnorm B := by
  refine le_of_sq_le_sq ?_ (by positivity)
  rw [mul_pow, fnorm_sq, fnorm_sq, mul_sum]
  refine sum_le_sum fun i _ => ?_
  rw [← mul_pow]
  exact pow_le_pow_left₀ (norm_nonneg _) (h i) 2

theorem norm_sq_coords (x : E n) : ‖x‖ ^ 2 = ∑ j, x j ^ 2 := by
  rw [EuclideanSpace.norm_sq_eq]; simp

/-- The rows about the mean are not larger than the rows. -/
theorem fnorm_centered {m : ℕ} (hm : m ≠ 0) (q : Fin m → E n) {c : E n} (hc : c = (m : ℝ)⁻¹ • ∑ i, q i) :
    fnorm (fun i => q i - c) ≤ fnorm q := by
  refine le_of_sq_le_sq ?_ (norm_nonneg _)
  have hmr : (m : ℝ) ≠ 0 := Nat.cast_ne_zero.mpr hm
  have hs : ∑ i, q i = (m : ℝ) • c := by rw [hc, smul_smul, mul_inv_cancel₀ hmr, one_smul]
  have e : ∑ i, ‖q i - c‖ ^ 2 = ∑ i, ‖q i‖ ^ 2 - m * ‖c‖ ^ 2 := by
    have : ∀ i, ‖q i - c‖ ^ 2 = ‖q i‖ ^ 2 - 2 * inner ℝ (q i) c + ‖c‖ ^ 2 := fun i => norm_sub_sq_real _ _
    rw [sum_congr rfl fun i _ => this i, sum_add_distrib, sum_sub_distrib, ← mul_sum, ← sum_inner, hs,
      real_inner_smul_left, real_inner_self_eq_norm_sq]
    simp
    ring
  rw [fnorm_sq, fnorm_sq, e]
  have : 0 ≤ m * ‖c‖ ^ 2 := by positivity
  linarith

theorem fnorm_const {m : ℕ} (hm : m ≠ 0) (q : Fin m → E n) {d : E n} {γ : ℝ} (hγ : 0 ≤ γ)
    (h : ∀ j, |d j| ≤ γ * ((∑ i, |q i j|) / m)) : fnorm (fun _ : Fin m => d) ≤ γ * fnorm q := by
  have hmr : (0 : ℝ) < m := by positivity
  refine le_of_sq_le_sq ?_ (by positivity)
  rw [mul_pow, fnorm_sq, fnorm_sq, sum_const, card_univ, Fintype.card_fin, nsmul_eq_mul, norm_sq_coords]
  have h1 : ∑ i, ‖q i‖ ^ 2 = ∑ j, ∑ i, |q i j| ^ 2 := by
    rw [sum_comm]; refine sum_congr rfl fun i _ => ?_
    rw [norm_sq_coords]; simp
  rw [h1, mul_sum, mul_sum]
  refine sum_le_sum fun j _ => ?_
  have h2 : (∑ i, |q i j|) ^ 2 ≤ m * ∑ i, |q i j| ^ 2 := by
    have := sq_sum_le_card_mul_sum_sq (s := (univ : Finset (Fin m))) (f := fun i => |q i j|)
    simpa using this
  have h3 : d j ^ 2 ≤ (γ * ((∑ i, |q i j|) / m)) ^ 2 := by
    rw [← sq_abs]; exact pow_le_pow_left₀ (abs_nonneg _) (h j) 2
  calc m * d j ^ 2 ≤ m * (γ * ((∑ i, |q i j|) / m)) ^ 2 := mul_le_mul_of_nonneg_left h3 hmr.le
    _ = γ ^ 2 * ((∑ i, |q i j|) ^ 2 / m) := by field_simp
    _ ≤ γ ^ 2 * ∑ i, |q i j| ^ 2 := by
        refine mul_le_mul_of_nonneg_left ?_ (sq_nonneg _)
        rw [div_le_iff₀ hmr]; linarith

theorem norm_le_of_coords {x y : E n} {k : ℝ} (hk : 0 ≤ k) (h : ∀ j, |x j| ≤ k * |y j|) : ‖x‖ ≤ k * ‖y‖ := by
  refine le_of_sq_le_sq ?_ (by positivity)
  rw [mul_pow, norm_sq_coords, norm_sq_coords, mul_sum]
  refine sum_le_sum fun j _ => ?_
  rw [← sq_abs, ← sq_abs (y j), ← mul_pow]
  exact pow_le_pow_left₀ (abs_nonneg _) (h j) 2

/-- The rounded `mean_center`. -/
theorem meanCenter_rd [NeZero n] (h : StdRounding u fl) {m : ℕ} (hm : m ≠ 0) (q : Fin m → E n) {c : E n}
    (hc : c = (m : ℝ)⁻¹ • ∑ i, q i) :
    ∃ (C : Fin m → E n) (c' : E n), @Pts.meanCenter ℝ (rounded fl) (rows (List.ofFn q)) = .ok (rows (List.ofFn C), arr c') ∧
      fnorm (fun i => C i - (q i - c)) ≤ (((1 - u) ^ (m + 2))⁻¹ - 1) * fnorm q ∧
      @Pts.centroid ℝ (rounded fl) (rows (List.ofFn q)) = .ok (arr c') ∧
      fnorm (fun _ : Fin m => c - c') ≤ (((1 - u) ^ (m + 1))⁻¹ - 1) * fnorm q := by
  have h1u : 0 < 1 - u := by linarith [h.lt_one]
  have hu0 := h.nonneg
  obtain ⟨c', hc1, hc2⟩ := C91_centroid h (P := List.ofFn q) (by simpa using hm)
  simp only [List.length_ofFn, List.sum_ofFn, List.map_ofFn, Function.comp_def, ← hc] at hc2
  choose g hg using fun x : E n => vsub_rd (fl := fl) x c'
  obtain ⟨γ, hγ⟩ : ∃ γ, γ = ((1 - u) ^ (m + 1))⁻¹ - 1 := ⟨_, rfl⟩
  have hγ0 : 0 ≤ γ := by
    have := one_le_inv₀ (pow_pos h1u (m + 1)) |>.mpr (pow_le_one₀ h1u.le (by linarith))
    rw [hγ]; linarith
  have hK : fnorm (fun _ : Fin m => c - c') ≤ γ * fnorm q := by
    refine fnorm_const hm q hγ0 fun j => ?_
    have := hc2 j
    rw [abs_sub_comm, ← hγ] at this
    exact this
  refine ⟨fun i => g (q i), c', ?_, ?_, hc1, by rw [← hγ]; exact hK⟩
  · have : (rows (List.ofFn q)).mapM (fun p => @vsub ℝ (rounded fl) p (arr c')) = .ok (rows (List.ofFn fun i => g (q i))) := by
      rw [mapM_rows _ _ (fun x => arr (g x)) fun x _ => (hg x).1]
      simp [rows, List.map_ofFn, Function.comp_def]
    simp only [Pts.meanCenter, hc1, ok_bind, this, pure_ok]
  · have hA := fnorm_centered hm q hc
    have h3 : fnorm (fun i => q i - c') ≤ fnorm (fun i => q i - c) + fnorm (fun _ : Fin m => c - c') := by
      refine le_trans (le_of_eq ?_) (fnorm_add_le _ _)
      congr 2; funext i; abel
    have h4 : fnorm (fun i => g (q i) - (q i - c')) ≤ u * fnorm (fun i => q i - c') := by
      refine fnorm_le_mul hu0 fun i => norm_le_of_coords hu0 fun j => ?_
      simp only [PiLp.sub_apply, (hg (q i)).2 j]
      exact h.err _
    have h5 : fnorm (fun i => g (q i) - (q i - c)) ≤ fnorm (fun i => g (q i) - (q i - c')) + fnorm (fun _ : Fin m => c - c') := by
      refine le_trans (le_of_eq ?_) (fnorm_add_le _ _)
      congr 2; funext i; abel
    have h6 : fnorm (fun i => g (q i) - (q i - c)) ≤ (u + (1 + u) * γ) * fnorm q := by
      have := mul_le_mul_of_nonneg_left (h3.trans (add_le_add hA hK)) hu0
      nlinarith
    refine h6.trans (mul_le_mul_of_nonneg_right ?_ (norm_nonneg _))
    have h7 : (1 + u) * (1 + γ) ≤ ((1 - u) ^ (m + 2))⁻¹ := by
      have : (1 : ℝ) + γ = ((1 - u) ^ (m + 1))⁻¹ := by rw [hγ]; ring
      rw [this, pow_succ (1 - u) (m + 1), mul_inv, mul_comm]
      refine mul_le_mul_of_nonneg_left ?_ (by positivity)
      rw [le_inv_comm₀ (by positivity) h1u, ← one_div, le_div_iff₀ (by positivity)]
      nlinarith
    linarith

open Classical in
theorem affineRank_rd_core [NeZero n] (h : StdRounding u fl) [ext : NumpyExt ℝ] [hS : StableNumpy η] {P : List (E n)}
    (hP : P ≠ []) (tol : Option ℝ) :
    ∃ (r : ℕ) (t s' : ℝ), @Pts.affineRank ℝ (rounded fl) ext tol (rows P) = .ok r ∧ 0 ≤ s' ∧ (∀ s, tol = some s → t = s) ∧
      (tol = none → |t - s' * (max P.toFinset.card n : ℕ) * (2 : ℝ)⁻¹ ^ 52| ≤
        η * (s' * (max P.toFinset.card n : ℕ) * (2 : ℝ)⁻¹ ^ 52)) ∧
      (∀ x : E n, ‖x‖ = 1 → √(spread P.toFinset x) ≤ s' + rankNoise u η P.toFinset) ∧
      (∃ x : E n, ‖x‖ = 1 ∧ s' ≤ √(spread P.toFinset x) + rankNoise u η P.toFinset) ∧
      (0 ≤ t →
        (∀ U : Submodule ℝ (E n), (∀ x ∈ U, x ≠ 0 →
          (t + rankNoise u η P.toFinset) ^ 2 * ‖x‖ ^ 2 < spread P.toFinset x) → Module.finrank ℝ U ≤ r) ∧
        ∃ U : Submodule ℝ (E n), Module.finrank ℝ U = r ∧
          ∀ x ∈ U, x ≠ 0 → t * ‖x‖ < √(spread P.toFinset x) + rankNoise u η P.toFinset * ‖x‖) := by
  obtain ⟨Q, hQ1, hQ2, hQ3⟩ := exists_unique_rows P
  have hQ : Q ≠ [] := by
    rintro rfl
    obtain ⟨x, hx⟩ := List.exists_mem_of_ne_nil P hP
    exact absurd ((hQ3 x).mpr hx) (by simp)
  have hcard : P.toFinset.card = Q.length := by
    rw [← List.toFinset_card_of_nodup hQ2]; congr 1; ext y; simp [hQ3]
  have hm : Q.length ≠ 0 := by simpa using hQ
  have hc : centroidE Q = (Q.length : ℝ)⁻¹ • ∑ i, Q.get i := by
    rw [centroidE, ← List.sum_ofFn, List.ofFn_get]
  obtain ⟨C, c', hC1, hC2, -⟩ := meanCenter_rd h hm Q.get hc
  have hM : fnorm Q.get = momentNorm P.toFinset := by
    rw [momentNorm]
    refine (Real.sqrt_sq (norm_nonneg _ : 0 ≤ fnorm Q.get)).symm.trans ?_
    rw [fnorm_sq]
    congr 1
    have : P.toFinset = Q.toFinset := by ext y; simp [hQ3]
    rw [this, List.sum_toFinset _ hQ2, ← List.sum_ofFn]
    congr 1
    apply List.ext_getElem <;> simp
  have hsp : ∀ x : E n, ∑ i, (inner ℝ (Q.get i - centroidE Q) x : ℝ) ^ 2 = spread P.toFinset x := by
    intro x
    rw [← spread_nodup hQ2 hQ3, ← (finCongr (List.length_map (as := Q) fun q => q - centroidE Q).symm).sum_comp]
    refine sum_congr rfl fun i _ => ?_
    simp
  obtain ⟨t, s', h1, h2, h3, h4, h5, h6⟩ := rank_core (η := η) hm (NeZero.ne n) C (fun i => Q.get i - centroidE Q) tol hC2
    (fnorm_centered hm Q.get hc)
  have hnoise : η * (fnorm Q.get + (((1 - u) ^ (Q.length + 2))⁻¹ - 1) * fnorm Q.get) +
      (((1 - u) ^ (Q.length + 2))⁻¹ - 1) * fnorm Q.get = rankNoise u η P.toFinset := by
    rw [rankNoise, hcard, hM]; ring
  rw [hnoise] at h4 h5 h6
  simp only [hsp] at h4 h5 h6
  refine ⟨_, t, s', ?_, h1, h2, by rw [hcard]; exact h3, h4, h5, h6⟩
  rw [List.ofFn_get] at hC1
  simp only [Pts.affineRank, Pts.unique, npUnique_rounded, hQ1, newPoints_rd hQ, ok_bind, hC1, pure_ok]

open Classical in
/-- C105: `points.affine_rank(tol=t)` under rounding, with a backward stable `matrix_rank`: it is at least the dimension of
every subspace in all of whose directions the distinct points spread by more than `t` plus the noise, and there is a subspace
of that dimension in all of whose directions they spread by more than `t` minus the noise.  The noise is
`((1+η)(1-u)^(-(N+2)) - 1)` times the root of the sum of the squared distances of the `N` distinct points from the origin. -/
theorem C105_affine_rank [NeZero n] (h : StdRounding u fl) [ext : NumpyExt ℝ] [StableNumpy η] {P : List (E n)}
    (hP : P ≠ []) {t : ℝ} (ht : 0 ≤ t) :
    ∃ r : ℕ, @Pts.affineRank ℝ (rounded fl) ext (some t) (rows P) = .ok r ∧
      (∀ U : Submodule ℝ (E n), (∀ x ∈ U, x ≠ 0 →
        (t + rankNoise u η P.toFinset) ^ 2 * ‖x‖ ^ 2 < spread P.toFinset x) → Module.finrank ℝ U ≤ r) ∧
      ∃ U : Submodule ℝ (E n), Module.finrank ℝ U = r ∧
        ∀ x ∈ U, x ≠ 0 → t * ‖x‖ < √(spread P.toFinset x) + rankNoise u η P.toFinset * ‖x‖ := by
  obtain ⟨r, t', s', h1, -, h2, -, -, -, h3⟩ := affineRank_rd_core (η := η) h hP (some t)
  obtain rfl := h2 t rfl
  exact ⟨r, h1, h3 ht⟩

theorem spread_le_about (S : Finset (E n)) (x p : E n) : spread S x ≤ ∑ q ∈ S, (inner ℝ (q - p) x : ℝ) ^ 2 := by
  rcases S.eq_empty_or_nonempty with rfl | hS
  · simp [spread]
  have hm : (S.card : ℝ) ≠ 0 := by rw [Nat.cast_ne_zero]; exact (card_pos.mpr hS).ne'
  rw [spread]
  obtain ⟨c, hc⟩ : ∃ c, c = (S.card : ℝ)⁻¹ • ∑ p ∈ S, p := ⟨_, rfl⟩
  rw [← hc]
  have hs : ∑ q ∈ S, (inner ℝ (q - c) x : ℝ) = 0 := by
    rw [← sum_inner, sum_sub_distrib, sum_const, hc, ← Nat.cast_smul_eq_nsmul ℝ, smul_smul, mul_inv_cancel₀ hm, one_smul,
      sub_self, inner_zero_left]
  have e : ∀ q, (inner ℝ (q - p) x : ℝ) ^ 2 = inner ℝ (q - c) x ^ 2 + 2 * inner ℝ (c - p) x * inner ℝ (q - c) x +
      inner ℝ (c - p) x ^ 2 := by
    intro q
    have : (inner ℝ (q - p) x : ℝ) = inner ℝ (q - c) x + inner ℝ (c - p) x := by
      rw [← inner_add_left]; congr 1; abel
    rw [this]; ring
  rw [sum_congr rfl fun q _ => e q, sum_add_distrib, sum_add_distrib, ← mul_sum, hs, sum_const]
  have : 0 ≤ S.card • (inner ℝ (c - p) x : ℝ) ^ 2 := by positivity
  linarith

theorem spread_le_moment (S : Finset (E n)) {x : E n} (hx : ‖x‖ = 1) : √(spread S x) ≤ momentNorm S := by
  refine Real.sqrt_le_sqrt ((spread_le_about S x 0).trans (sum_le_sum fun q _ => ?_))
  have := abs_real_inner_le_norm q x
  rw [sub_zero, ← sq_abs]
  rw [hx, mul_one] at this
  exact pow_le_pow_left₀ (abs_nonneg _) this 2

/-- If at most `k` singular values exceed `τ`, all rows are within `τ` of a `k`-dimensional subspace. -/
theorem Dec.flat {A : List (E n)} {W : ℕ → E A.length} {σ : ℕ → ℝ} {V : ℕ → E n} (hd : Dec A W σ V) {τ : ℝ} (hτ : 0 ≤ τ) :
    ∃ U : Submodule ℝ (E n), Module.finrank ℝ U = Dec.cnt (min A.length n) σ τ ∧
      ∀ i : Fin A.length, ∃ v ∈ U, ‖A.get i - v‖ ≤ τ := by
  obtain ⟨c, hc⟩ : ∃ c, c = Dec.cnt (min A.length n) σ τ := ⟨_, rfl⟩
  have hck : c ≤ min A.length n := by rw [hc]; exact Dec.cnt_le _ _ _
  refine ⟨_, (hd.finrank_span_V hck).trans hc, fun i => ⟨∑ l ∈ range c, (σ l * W l i) • V l, ?_, ?_⟩⟩
  · refine Submodule.sum_mem _ fun l hl => Submodule.smul_mem _ _ (Submodule.subset_span ⟨⟨l, mem_range.mp hl⟩, rfl⟩)
  · have hsplit : A.get i - ∑ l ∈ range c, (σ l * W l i) • V l =
        ∑ l ∈ (range (min A.length n)).filter (fun l => ¬ l < c), (σ l * W l i) • V l := by
      rw [hd.dec i, ← sum_filter_add_sum_filter_not (range (min A.length n)) (fun l => l < c)]
      have : (range (min A.length n)).filter (fun l => l < c) = range c := by
        ext l; simp only [mem_filter, mem_range]; omega
      rw [this, add_sub_cancel_left]
    rw [hsplit]
    refine le_of_sq_le_sq ?_ hτ
    have hon : ∀ a : ℕ → ℝ, ∀ S ⊆ range (min A.length n), ‖∑ l ∈ S, a l • V l‖ ^ 2 = ∑ l ∈ S, a l ^ 2 := by
      intro a S hS
      rw [← real_inner_self_eq_norm_sq, sum_inner]
      refine sum_congr rfl fun l hl => ?_
      rw [inner_sum, sum_eq_single l]
      · rw [real_inner_smul_left, real_inner_smul_right, hd.inner_V (mem_range.mp (hS hl)) (mem_range.mp (hS hl)), if_pos rfl]
        ring
      · intro m hm hml
        rw [real_inner_smul_left, real_inner_smul_right, hd.inner_V (mem_range.mp (hS hl)) (mem_range.mp (hS hm)), if_neg hml.symm]
        ring
      · intro h; exact absurd hl h
    rw [hon _ _ (filter_subset _ _)]
    have hW : ∑ l ∈ range (min A.length n), W l i ^ 2 ≤ 1 := by
      have := hd.hW.sum_inner_products_le (s := univ) (EuclideanSpace.single i (1 : ℝ))
      simp only [Real.norm_eq_abs, sq_abs, EuclideanSpace.norm_single, abs_one, one_pow] at this
      rw [← Fin.sum_univ_eq_sum_range (fun l => W l i ^ 2)]
      simpa [EuclideanSpace.inner_single_right] using this
    calc ∑ l ∈ (range (min A.length n)).filter (fun l => ¬ l < c), (σ l * W l i) ^ 2
        ≤ ∑ l ∈ (range (min A.length n)).filter (fun l => ¬ l < c), τ ^ 2 * W l i ^ 2 := by
          refine sum_le_sum fun l hl => ?_
          rw [mem_filter, mem_range] at hl
          have : σ l ≤ τ := by
            by_contra hcon
            exact hl.2 (by rw [hc]; exact (Dec.lt_cnt_iff hd.anti τ hl.1).mpr (not_le.mp hcon))
          rw [mul_pow]
          exact mul_le_mul_of_nonneg_right (pow_le_pow_left₀ (hd.nonneg l) this 2) (sq_nonneg _)
      _ ≤ ∑ l ∈ range (min A.length n), τ ^ 2 * W l i ^ 2 :=
          sum_le_sum_of_subset_of_nonneg (filter_subset _ _) fun _ _ _ => by positivity
      _ = τ ^ 2 * ∑ l ∈ range (min A.length n), W l i ^ 2 := by rw [mul_sum]
      _ ≤ τ ^ 2 * 1 := mul_le_mul_of_nonneg_left hW (sq_nonneg _)
      _ = τ ^ 2 := mul_one _

open Classical in
/-- If no subspace of dimension above `k` has spread more than `τ` in all directions, the points are within `τ` of a flat of
dimension at most `k` through their centroid. -/
theorem flat_of_spread [NeZero n] {P : List (E n)} (hP : P ≠ []) {τ : ℝ} (hτ : 0 ≤ τ) {k : ℕ}
    (hk : ∀ U : Submodule ℝ (E n), (∀ x ∈ U, x ≠ 0 → τ ^ 2 * ‖x‖ ^ 2 < spread P.toFinset x) → Module.finrank ℝ U ≤ k) :
    ∃ F : AffineSubspace ℝ (E n), Module.finrank ℝ F.direction ≤ k ∧ ∀ x ∈ P, ∃ y ∈ F, dist x y ≤ τ := by
  obtain ⟨ext', hl, -⟩ := exists_lawfulNumpy fun _ x => x
  obtain ⟨Q, W, σ, V, hd, hnd, hm, -, -⟩ := @affineRank_centered n ext' hl _ P hP none
  obtain ⟨U, hU1, hU2⟩ := hd.flat hτ
  refine ⟨AffineSubspace.mk' (centroidE Q) U, ?_, fun x hx => ?_⟩
  · rw [AffineSubspace.direction_mk', hU1]
    obtain ⟨U', h1, h2⟩ := (hd.le_cnt_iff hτ _).mp (le_refl (Dec.cnt (min (Q.map fun q => q - centroidE Q).length n) σ τ))
    rw [← h1]
    refine hk U' fun x hx hx0 => ?_
    rw [← spread_nodup hnd hm]
    exact h2 x hx hx0
  · obtain ⟨i, hi⟩ := List.get_of_mem ((hm x).mpr hx)
    obtain ⟨v, hv1, hv2⟩ := hU2 (i.cast (by simp))
    refine ⟨v +ᵥ centroidE Q, ?_, ?_⟩
    · rw [AffineSubspace.mem_mk']; simpa using hv1
    · rw [dist_eq_norm]
      refine le_of_eq_of_le ?_ hv2
      congr 1
      simp only [List.get_eq_getElem, Fin.val_cast, List.getElem_map, vadd_eq_add]
      rw [← hi]
      simp only [List.get_eq_getElem]
      abel

open Classical in
/-- If the points are near a flat of dimension at most `k`, no subspace of larger dimension has spread in all directions. -/
theorem spread_of_flat {P : List (E n)} {τ : ℝ} (hτ : 0 ≤ τ) {k r : ℕ} {F : AffineSubspace ℝ (E n)}
    (hF : Module.finrank ℝ F.direction ≤ k) (y : E n → E n) (hy : ∀ x ∈ P, y x ∈ F)
    (hd : ∑ x ∈ P.toFinset, dist x (y x) ^ 2 ≤ τ ^ 2) (hP : P ≠ [])
    (hU : ∃ U : Submodule ℝ (E n), Module.finrank ℝ U = r ∧ ∀ x ∈ U, x ≠ 0 → τ * ‖x‖ < √(spread P.toFinset x)) : r ≤ k := by
  obtain ⟨U, hU1, hU2⟩ := hU
  by_contra hlt
  push Not at hlt
  have hex : ∃ x ∈ U, x ∈ F.directionᗮ ∧ x ≠ 0 := by
    by_contra hno
    push Not at hno
    have hdisj : Disjoint U F.directionᗮ := by
      rw [Submodule.disjoint_def]; exact hno
    have := Submodule.finrank_add_finrank_le_of_disjoint hdisj
    have h3 := Submodule.finrank_add_finrank_orthogonal F.direction
    omega
  obtain ⟨x, hxU, hxF, hx0⟩ := hex
  have h1 := hU2 x hxU hx0
  obtain ⟨p, hp⟩ := List.exists_mem_of_ne_nil P hP
  have h2 : spread P.toFinset x ≤ (τ * ‖x‖) ^ 2 := by
    refine (spread_le_about P.toFinset x (y p)).trans ?_
    rw [mul_pow]
    refine le_trans ?_ (mul_le_mul_of_nonneg_right hd (sq_nonneg _))
    rw [sum_mul]
    refine sum_le_sum fun q hq => ?_
    have hz : (inner ℝ (y q - y p) x : ℝ) = 0 :=
      (Submodule.mem_orthogonal _ _).mp hxF _ (AffineSubspace.vsub_mem_direction (hy q (List.mem_toFinset.mp hq)) (hy p hp))
    have e : (inner ℝ (q - y p) x : ℝ) = inner ℝ (q - y q) x := by
      rw [← sub_add_sub_cancel q (y q) (y p), inner_add_left, hz, add_zero]
    rw [e, dist_eq_norm, ← mul_pow, ← sq_abs]
    exact pow_le_pow_left₀ (abs_nonneg _) (abs_real_inner_le_norm _ _) 2
  have := Real.sqrt_le_sqrt h2
  rw [Real.sqrt_sq (by positivity)] at this
  linarith

open Classical in
/-- C105, NumPy's default tolerance: the same with a threshold `t` between `(1-η)(s-e)` and `(1+η)(s+e)` times
`2⁻⁵² · max(N, n)`, where `s` is the largest spread in a direction and `e` the noise. -/
theorem C105_affine_rank_default [NeZero n] (h : StdRounding u fl) [ext : NumpyExt ℝ] [hS : StableNumpy η] {P : List (E n)}
    (hP : P ≠ []) : ∃ (r : ℕ) (t s : ℝ), @Pts.affineRank ℝ (rounded fl) ext none (rows P) = .ok r ∧
      0 ≤ s ∧ IsGreatest {v | ∃ x : E n, ‖x‖ = 1 ∧ v = spread P.toFinset x} (s ^ 2) ∧ 0 ≤ t ∧
      (1 - η) * (s - rankNoise u η P.toFinset) * (max P.toFinset.card n : ℕ) * (2 : ℝ)⁻¹ ^ 52 ≤ t ∧
      t ≤ (1 + η) * (s + rankNoise u η P.toFinset) * (max P.toFinset.card n : ℕ) * (2 : ℝ)⁻¹ ^ 52 ∧
      (∀ U : Submodule ℝ (E n), (∀ x ∈ U, x ≠ 0 →
        (t + rankNoise u η P.toFinset) ^ 2 * ‖x‖ ^ 2 < spread P.toFinset x) → Module.finrank ℝ U ≤ r) ∧
      ∃ U : Submodule ℝ (E n), Module.finrank ℝ U = r ∧
        ∀ x ∈ U, x ≠ 0 → t * ‖x‖ < √(spread P.toFinset x) + rankNoise u η P.toFinset * ‖x‖ := by
  obtain ⟨r, t, s', h1, hs', -, h2, h3, ⟨y, hy1, hy2⟩, h4⟩ := affineRank_rd_core (η := η) h hP none
  obtain ⟨s, hs0, hs⟩ : ∃ s : ℝ, 0 ≤ s ∧ IsGreatest {v | ∃ x : E n, ‖x‖ = 1 ∧ v = spread P.toFinset x} (s ^ 2) := by
    obtain ⟨ext', hl⟩ := exists_lawfulNumpy fun _ x => x
    obtain ⟨-, s, -, hs0, hs, -⟩ := @C21_affine_rank_default n ext' hl.1 _ P hP
    exact ⟨s, hs0, hs⟩
  obtain ⟨e, he⟩ : ∃ e, e = rankNoise u η P.toFinset := ⟨_, rfl⟩
  rw [← he] at h3 hy2 h4 ⊢
  obtain ⟨k, hk⟩ : ∃ k : ℝ, k = (max P.toFinset.card n : ℕ) * (2 : ℝ)⁻¹ ^ 52 := ⟨_, rfl⟩
  have hk0 : 0 ≤ k := by rw [hk]; positivity
  have h2' := h2 rfl
  simp only [mul_assoc s', ← hk] at h2'
  have hle : s ≤ s' + e := by
    obtain ⟨x, hx1, hx2⟩ := hs.1
    have := h3 x hx1
    rw [← hx2, Real.sqrt_sq hs0] at this
    exact this
  have hge : s' ≤ s + e := by
    have := hs.2 ⟨y, hy1, rfl⟩
    have := Real.sqrt_le_sqrt this
    rw [Real.sqrt_sq hs0] at this
    linarith
  have hη0 := hS.nonneg
  have hη1 := hS.lt_one
  rw [abs_le] at h2'
  have ht1 : (1 - η) * s' * k ≤ t := by nlinarith
  have ht2 : t ≤ (1 + η) * s' * k := by nlinarith
  have ht0 : 0 ≤ t := le_trans (mul_nonneg (mul_nonneg (by linarith) hs') hk0) ht1
  refine ⟨r, t, s, h1, hs0, hs, ht0, ?_, ?_, h4 ht0⟩
  · rw [mul_assoc, ← hk]
    refine le_trans (mul_le_mul_of_nonneg_right (mul_le_mul_of_nonneg_left ?_ (by linarith)) hk0) ht1
    linarith
  · rw [mul_assoc, ← hk]
    refine ht2.trans (mul_le_mul_of_nonneg_right (mul_le_mul_of_nonneg_left hge (by linarith)) hk0)

end SkSpatial
