import Verif.Props.Rounding26
import Verif.Props.BestFitRounded2
/-! # C117: `Plane.intersect_plane` under rounding -/

namespace SkSpatial
open StdRounding

variable {u η : ℝ} {fl : Arith} {n : ℕ}

theorem frob_ofFn_sq (A : Fin n → E n) : frob (List.ofFn A) ^ 2 = ∑ i, ‖A i‖ ^ 2 := by
  rw [frob, List.map_ofFn, List.sum_ofFn, Real.sq_sqrt (Finset.sum_nonneg fun i _ => by simp only [Function.comp]; positivity)]
  rfl

theorem frob_nonneg (A : List (E n)) : 0 ≤ frob A := Real.sqrt_nonneg _

/-- The exact contract is the stable one with `η = 0`. -/
theorem StableSolve.of_lawful [NumpyExt ℝ] [LawfulNumpy] : StableSolve 0 where
  nonneg := le_rfl
  solve {n} A b hA := by
    have h0 : frob (List.ofFn fun i => A i - A i) ≤ 0 * frob (List.ofFn A) := by
      rw [zero_mul]
      refine le_of_sq_le_sq ?_ le_rfl
      rw [frob_ofFn_sq]; simp
    have hker := hA A h0
    have hspan : Submodule.span ℝ (Set.range A) = ⊤ := by
      rw [← Submodule.orthogonal_eq_bot_iff, Submodule.eq_bot_iff]
      intro x hx
      refine hker x fun i => ?_
      exact (Submodule.mem_orthogonal _ x).mp hx (A i) (Submodule.subset_span ⟨i, rfl⟩)
    have hli : LinearIndependent ℝ A :=
      linearIndependent_of_top_le_span_of_card_eq_finrank hspan.ge (by simp)
    have hinj : Function.Injective (fun x : E n => (WithLp.toLp 2 fun i => inner ℝ (A i) x : E n)) := by
      intro x y hxy
      have : x - y = 0 := hker _ fun i => by
        have := congrArg (fun z : E n => z i) hxy
        rw [inner_sub_right, sub_eq_zero]
        exact this
      exact sub_eq_zero.mp this
    let f : E n →ₗ[ℝ] E n :=
      { toFun := fun x => WithLp.toLp 2 fun i => inner ℝ (A i) x
        map_add' := fun x y => by ext i; simp [inner_add_right]
        map_smul' := fun c x => by ext i; simp [real_inner_smul_right] }
    have hsurj : Function.Surjective f := LinearMap.injective_iff_surjective.mp hinj
    obtain ⟨x, hx⟩ := hsurj b
    have hxi : ∀ i, inner ℝ (A i) x = b i := fun i => by rw [← hx]; rfl
    refine ⟨A, x, h0, hxi, LawfulNumpy.solve (List.ofFn A) b x (by simp) ?_ fun i => ?_⟩
    · have : (List.ofFn A).get = A ∘ Fin.cast (by simp) := by funext i; simp; rfl
      rw [this]
      exact hli.comp _ (Fin.cast_injective _)
    · rw [← hxi i]; simp

theorem sine_smul_le {a b : E 3} {s : ℝ} (hs : ‖crossE a b‖ = ‖a‖ * ‖b‖ * s) (hb : b ≠ 0) (l t : ℝ) :
    |l| * (‖a‖ * s) ≤ ‖l • a + t • b‖ := by
  have h1 : crossE (l • a + t • b) b = l • crossE a b := by
    ext i; fin_cases i <;> simp [crossE, vec3] <;> ring
  have h2 := norm_crossE_le (l • a + t • b) b
  rw [h1, norm_smul, hs, Real.norm_eq_abs] at h2
  have hb0 : 0 < ‖b‖ := norm_pos_iff.mpr hb
  refine le_of_mul_le_mul_right ?_ hb0
  linarith

theorem sine_symm {a b : E 3} {s : ℝ} (hs : ‖crossE a b‖ = ‖a‖ * ‖b‖ * s) : ‖crossE b a‖ = ‖b‖ * ‖a‖ * s := by
  rw [crossE_anticomm, norm_neg, hs]; ring

/-- A vector is determined by its components along two vectors and their cross product. -/
theorem norm_le_comps {a b e : E 3} {s g₁ g₂ k : ℝ} (hs : ‖crossE a b‖ = ‖a‖ * ‖b‖ * s) (ha : a ≠ 0) (hb : b ≠ 0) (hs0 : 0 < s)
    (hg₁ : |inner ℝ a e| ≤ g₁ * ‖a‖) (hg₂ : |inner ℝ b e| ≤ g₂ * ‖b‖) (hk0 : 0 ≤ k)
    (hk : |inner ℝ (crossE a b) e| ≤ k * ‖crossE a b‖) : ‖e‖ ≤ (g₁ + g₂) / s + k := by
  have ha0 : 0 < ‖a‖ := norm_pos_iff.mpr ha
  have hb0 : 0 < ‖b‖ := norm_pos_iff.mpr hb
  have hd0 : 0 < ‖crossE a b‖ := by rw [hs]; positivity
  have h1 : crossE e (crossE a b) = (inner ℝ b e : ℝ) • a - (inner ℝ a e : ℝ) • b := by
    rw [inner3, inner3]
    ext i; fin_cases i <;> simp [crossE, vec3] <;> ring
  have h2 := crossE_norm_sq e (crossE a b)
  have h3 : ‖crossE e (crossE a b)‖ ≤ (g₁ + g₂) * (‖a‖ * ‖b‖) := by
    rw [h1]
    calc _ ≤ ‖(inner ℝ b e : ℝ) • a‖ + ‖(inner ℝ a e : ℝ) • b‖ := norm_sub_le _ _
      _ = |inner ℝ b e| * ‖a‖ + |inner ℝ a e| * ‖b‖ := by rw [norm_smul, norm_smul, Real.norm_eq_abs, Real.norm_eq_abs]
      _ ≤ g₂ * ‖b‖ * ‖a‖ + g₁ * ‖a‖ * ‖b‖ := by gcongr
      _ = _ := by ring
  have hG : 0 ≤ (g₁ + g₂) * (‖a‖ * ‖b‖) := (norm_nonneg _).trans h3
  have h4 : ‖e‖ * ‖crossE a b‖ ≤ (g₁ + g₂) * (‖a‖ * ‖b‖) + k * ‖crossE a b‖ := by
    apply le_of_sq_le_sq _ (by positivity)
    rw [mul_pow]
    have e1 : ‖e‖ ^ 2 * ‖crossE a b‖ ^ 2 = ‖crossE e (crossE a b)‖ ^ 2 + |inner ℝ (crossE a b) e| ^ 2 := by
      rw [h2, sq_abs, real_inner_comm]; ring
    rw [e1]
    have e2 : ‖crossE e (crossE a b)‖ ^ 2 ≤ ((g₁ + g₂) * (‖a‖ * ‖b‖)) ^ 2 := by gcongr
    have e3 : |inner ℝ (crossE a b) e| ^ 2 ≤ (k * ‖crossE a b‖) ^ 2 := by gcongr
    have e4 : 0 ≤ k * ‖crossE a b‖ := by positivity
    nlinarith
  rw [hs] at h4
  have hab : 0 < ‖a‖ * ‖b‖ := by positivity
  have h5 : ‖e‖ * s ≤ (g₁ + g₂) + k * s := by
    refine le_of_mul_le_mul_right ?_ hab
    linarith
  rw [← sub_le_iff_le_add, le_div_iff₀ hs0]
  linarith

/-- The multipliers of the perturbed system are bounded by the point. -/
theorem kkt_mult {P X T l₁ l₂ σ ω : ℝ} (hP : 0 ≤ P) (hσ : 0 < σ) (hσ2 : σ ≤ 2) (hω0 : 0 ≤ ω) (hω : ω ≤ 27 / 1000)
    (h1 : |l₁| * σ ≤ 2 * P + T) (h2 : |l₂| * σ ≤ 2 * P + T) (hX : X ≤ P + |l₁| + |l₂|) (hT : T = ω * σ * X) :
    T ≤ 64 / 10 * ω * P ∧ X * σ ≤ 6 * P + 2 * T := by
  have h3 : X * σ ≤ 6 * P + 2 * T := by
    have := mul_le_mul_of_nonneg_right hX hσ.le
    have := mul_le_mul_of_nonneg_left hσ2 hP
    linarith
  refine ⟨?_, h3⟩
  have h4 : T ≤ ω * (6 * P + 2 * T) := by
    rw [hT, mul_assoc, mul_comm σ X]
    rw [hT, mul_assoc, mul_comm σ X] at h3
    exact mul_le_mul_of_nonneg_left h3 hω0
  have hωP : 0 ≤ ω * P := by positivity
  by_contra hc
  have hc := not_le.mp hc
  have hT0 : 0 < T := by linarith
  have h5 : ω * T ≤ 27 / 1000 * T := mul_le_mul_of_nonneg_right hω hT0.le
  linarith

/-- The matrix of the linear system of `intersect_plane` (plane.py:677-688). -/
noncomputable def kktMatrix (a b : E 3) : Fin 5 → E 5 := ![WithLp.toLp 2 ![2, 0, 0, a 0, b 0], WithLp.toLp 2 ![0, 2, 0, a 1, b 1],
  WithLp.toLp 2 ![0, 0, 2, a 2, b 2], WithLp.toLp 2 ![a 0, a 1, a 2, 0, 0], WithLp.toLp 2 ![b 0, b 1, b 2, 0, 0]]

theorem rows_kkt (a b : E 3) : rows (List.ofFn (kktMatrix a b)) = [[2, 0, 0, a 0, b 0], [0, 2, 0, a 1, b 1], [0, 0, 2, a 2, b 2],
      [a 0, a 1, a 2, 0, 0], [b 0, b 1, b 2, 0, 0]] := by
  simp [rows, kktMatrix, arr, List.ofFn_succ]

theorem norm_sq5 (x : E 5) : ‖x‖ ^ 2 = x 0 ^ 2 + x 1 ^ 2 + x 2 ^ 2 + x 3 ^ 2 + x 4 ^ 2 := by
  rw [EuclideanSpace.norm_sq_eq, Fin.sum_univ_five]
  simp

theorem frob_kkt (a b : E 3) : frob (List.ofFn (kktMatrix a b)) ^ 2 = 12 + 2 * ‖a‖ ^ 2 + 2 * ‖b‖ ^ 2 := by
  rw [frob_ofFn_sq, Fin.sum_univ_five, norm_sq3, norm_sq3]
  simp only [norm_sq5]
  simp [kktMatrix]
  ring

theorem sum_sq_le {P A B : ℝ} (hP : 0 ≤ P) (hA : 0 ≤ A) (hB : 0 ≤ B) : P ^ 2 + A ^ 2 + B ^ 2 ≤ (P + A + B) ^ 2 := by
  nlinarith [mul_nonneg hP hA, mul_nonneg hP hB, mul_nonneg hA hB]

set_option maxHeartbeats 1000000 in
theorem kkt_core {a b : E 3} {s m ω : ℝ} (hs : ‖crossE a b‖ = ‖a‖ * ‖b‖ * s) (hs0 : 0 < s) (hs1 : s ≤ 1) (hm : 0 < m) (hm2 : m ≤ 2)
    (hma : m ≤ ‖a‖) (hmb : m ≤ ‖b‖) (hω0 : 0 ≤ ω) (hω : ω ≤ 27 / 1000) {A' : Fin 5 → E 5}
    (hA' : frob (List.ofFn fun i => A' i - kktMatrix a b i) ≤ ω * (s * m)) {x : E 5} {α β : ℝ}
    (hx : ∀ i, inner ℝ (A' i) x = (WithLp.toLp 2 ![0, 0, 0, α, β] : E 5) i) :
    ∃ T, T ≤ 64 / 10 * ω * ‖vec3 (x 0) (x 1) (x 2)‖ ∧ |inner ℝ a (vec3 (x 0) (x 1) (x 2)) - α| ≤ T ∧
      |inner ℝ b (vec3 (x 0) (x 1) (x 2)) - β| ≤ T ∧
      |inner ℝ (crossE a b) (vec3 (x 0) (x 1) (x 2))| * 2 ≤ T * ‖crossE a b‖ ∧
      ‖x‖ * (s * m) ≤ 6 * ‖vec3 (x 0) (x 1) (x 2)‖ + 2 * T := by
  have ha : a ≠ 0 := norm_pos_iff.mp (hm.trans_le hma)
  have hb : b ≠ 0 := norm_pos_iff.mp (hm.trans_le hmb)
  obtain ⟨p, hp⟩ : ∃ p : E 3, p = vec3 (x 0) (x 1) (x 2) := ⟨_, rfl⟩
  rw [← hp]
  have p0 : p 0 = x 0 := by rw [hp]; simp [vec3]
  have p1 : p 1 = x 1 := by rw [hp]; simp [vec3]
  have p2 : p 2 = x 2 := by rw [hp]; simp [vec3]
  obtain ⟨T, hT⟩ : ∃ T, T = ω * (s * m) * ‖x‖ := ⟨_, rfl⟩
  have hT0 : 0 ≤ T := by rw [hT]; positivity
  obtain ⟨g, hg⟩ : ∃ g : Fin 5 → ℝ, g = fun i => inner ℝ (kktMatrix a b i - A' i) x := ⟨_, rfl⟩
  have hgT : ∑ i, g i ^ 2 ≤ T ^ 2 := by
    have h1 : ∑ i, g i ^ 2 ≤ ∑ i, ‖A' i - kktMatrix a b i‖ ^ 2 * ‖x‖ ^ 2 := by
      refine Finset.sum_le_sum fun i _ => ?_
      rw [hg, ← sq_abs, ← mul_pow, norm_sub_rev]
      have := abs_real_inner_le_norm (kktMatrix a b i - A' i) x
      gcongr
    rw [← Finset.sum_mul, ← frob_ofFn_sq, ← mul_pow] at h1
    refine h1.trans ?_
    rw [hT]
    have := frob_nonneg (List.ofFn fun i => A' i - kktMatrix a b i)
    gcongr
  have hrow : ∀ i, inner ℝ (kktMatrix a b i) x = (WithLp.toLp 2 ![0, 0, 0, α, β] : E 5) i + g i := fun i => by
    rw [← hx i]; simp only [hg]; rw [inner_sub_left]; ring
  rw [Fin.sum_univ_five] at hgT
  have r0 := hrow 0
  have r1 := hrow 1
  have r2 := hrow 2
  have r3 := hrow 3
  have r4 := hrow 4
  simp [kktMatrix, PiLp.inner_apply, Fin.sum_univ_five] at r0 r1 r2 r3 r4
  have hgi : ∀ y : ℝ, y ^ 2 ≤ T ^ 2 → |y| ≤ T := fun y hy => by
    rw [← sq_abs] at hy
    exact le_of_sq_le_sq hy hT0
  obtain ⟨f, hf⟩ : ∃ f : E 3, f = vec3 (g 0) (g 1) (g 2) := ⟨_, rfl⟩
  have hfT : ‖f‖ ≤ T := by
    refine le_of_sq_le_sq ?_ hT0
    rw [norm_sq3, hf]
    simp [vec3]
    linarith [sq_nonneg (g 3), sq_nonneg (g 4)]
  have hfe : (2 : ℝ) • p + (x 3 • a + x 4 • b) = f := by
    rw [hf]
    ext i
    fin_cases i
    · simp [vec3, p0]; linarith
    · simp [vec3, p1]; linarith
    · simp [vec3, p2]; linarith
  have hlin : ‖x 3 • a + x 4 • b‖ ≤ 2 * ‖p‖ + T := by
    rw [show x 3 • a + x 4 • b = f - (2 : ℝ) • p by rw [← hfe]; abel]
    calc _ ≤ ‖f‖ + ‖(2 : ℝ) • p‖ := norm_sub_le _ _
      _ = ‖f‖ + 2 * ‖p‖ := by rw [norm_smul]; norm_num
      _ ≤ _ := by linarith
  have hσ : 0 < s * m := by positivity
  have l1 : |x 3| * (s * m) ≤ 2 * ‖p‖ + T := by
    have := sine_smul_le hs hb (x 3) (x 4)
    have h2 : |x 3| * (s * m) ≤ |x 3| * (‖a‖ * s) := by
      refine mul_le_mul_of_nonneg_left ?_ (abs_nonneg _)
      rw [mul_comm]; gcongr
    linarith
  have l2 : |x 4| * (s * m) ≤ 2 * ‖p‖ + T := by
    have := sine_smul_le (sine_symm hs) ha (x 4) (x 3)
    rw [add_comm] at this
    have h2 : |x 4| * (s * m) ≤ |x 4| * (‖b‖ * s) := by
      refine mul_le_mul_of_nonneg_left ?_ (abs_nonneg _)
      rw [mul_comm]; gcongr
    linarith
  have hX : ‖x‖ ≤ ‖p‖ + |x 3| + |x 4| := by
    refine le_of_sq_le_sq ?_ (by positivity)
    rw [norm_sq5]
    have := norm_sq3 p
    rw [p0, p1, p2] at this
    have h3 := sum_sq_le (norm_nonneg p) (abs_nonneg (x 3)) (abs_nonneg (x 4))
    rw [sq_abs, sq_abs] at h3
    linarith
  obtain ⟨k1, k2⟩ := kkt_mult (norm_nonneg p) hσ (by nlinarith) hω0 hω l1 l2 hX hT
  refine ⟨T, k1, ?_, ?_, ?_, k2⟩
  · rw [show inner ℝ a p - α = g 3 by rw [inner3, p0, p1, p2]; linarith]
    exact hgi _ (by linarith [sq_nonneg (g 0), sq_nonneg (g 1), sq_nonneg (g 2), sq_nonneg (g 4)])
  · rw [show inner ℝ b p - β = g 4 by rw [inner3, p0, p1, p2]; linarith]
    exact hgi _ (by linarith [sq_nonneg (g 0), sq_nonneg (g 1), sq_nonneg (g 2), sq_nonneg (g 3)])
  · have h1 : (inner ℝ (crossE a b) p : ℝ) * 2 = inner ℝ (crossE a b) f := by
      rw [← hfe, inner_add_right, inner_add_right, real_inner_smul_right, real_inner_smul_right, real_inner_smul_right,
        crossE_inner_left, crossE_inner_right]; ring
    have h2 : |inner ℝ (crossE a b) p| * 2 = |inner ℝ (crossE a b) f| := by rw [← h1, abs_mul, abs_two]
    rw [h2]
    calc _ ≤ ‖crossE a b‖ * ‖f‖ := abs_real_inner_le_norm _ _
      _ ≤ ‖crossE a b‖ * T := by gcongr
      _ = _ := mul_comm _ _

/-- All matrices near the one of `intersect_plane` are invertible. -/
theorem kkt_regular {a b : E 3} {s m ω : ℝ} (hs : ‖crossE a b‖ = ‖a‖ * ‖b‖ * s) (hs0 : 0 < s) (hs1 : s ≤ 1) (hm : 0 < m) (hm2 : m ≤ 2)
    (hma : m ≤ ‖a‖) (hmb : m ≤ ‖b‖) (hω0 : 0 ≤ ω) (hω : ω ≤ 27 / 1000) (hω2 : 40 * ω ≤ s * m) {A' : Fin 5 → E 5}
    (hA' : frob (List.ofFn fun i => A' i - kktMatrix a b i) ≤ ω * (s * m)) (x : E 5) (hx : ∀ i, inner ℝ (A' i) x = (0 : ℝ)) :
    x = 0 := by
  have ha : a ≠ 0 := norm_pos_iff.mp (hm.trans_le hma)
  have hb : b ≠ 0 := norm_pos_iff.mp (hm.trans_le hmb)
  obtain ⟨T, hT, h1, h2, h3, h4⟩ := kkt_core hs hs0 hs1 hm hm2 hma hmb hω0 hω hA' (x := x) (α := 0) (β := 0)
    (fun i => by rw [hx]; fin_cases i <;> simp)
  obtain ⟨p, hp⟩ : ∃ p : E 3, p = vec3 (x 0) (x 1) (x 2) := ⟨_, rfl⟩
  rw [← hp] at hT h1 h2 h3 h4
  have hT0 : 0 ≤ T := (abs_nonneg _).trans h1
  rw [sub_zero] at h1 h2
  have hTm : ∀ c : E 3, m ≤ ‖c‖ → T ≤ T / m * ‖c‖ := fun c hc => by
    rw [div_mul_eq_mul_div, le_div_iff₀ hm]; gcongr
  have key := norm_le_comps hs ha hb hs0 (e := p) (g₁ := T / m) (g₂ := T / m) (k := T / 2)
    (h1.trans (hTm a hma)) (h2.trans (hTm b hmb)) (by positivity) (by linarith)
  have hσ : 0 < s * m := by positivity
  have h5 : ‖p‖ * (s * m) ≤ 4 * T := by
    have := mul_le_mul_of_nonneg_right key hσ.le
    have e : ((T / m + T / m) / s + T / 2) * (s * m) = 2 * T + T / 2 * (s * m) := by field_simp; ring
    rw [e] at this
    have h6 : s * m ≤ 2 := by nlinarith
    have := mul_le_mul_of_nonneg_left h6 (by positivity : 0 ≤ T / 2)
    linarith
  have h7 : ‖p‖ = 0 := by
    have hp0 := norm_nonneg p
    have := mul_le_mul_of_nonneg_right hω2 hp0
    have : 0 ≤ ω * ‖p‖ := by positivity
    have h8 : ‖p‖ * (s * m) = 0 := by
      have : 0 ≤ ‖p‖ * (s * m) := by positivity
      linarith
    rcases mul_eq_zero.mp h8 with h | h
    · exact h
    · linarith
  rw [h7] at hT h4
  have hT1 : T = 0 := by linarith
  have h9 : ‖x‖ * (s * m) = 0 := by
    have : 0 ≤ ‖x‖ * (s * m) := by positivity
    linarith
  rcases mul_eq_zero.mp h9 with h | h
  · exact norm_eq_zero.mp h
  · linarith

/-- The point of two planes nearest to the origin is orthogonal to their common direction. -/
theorem nearest_perp {p q a b x : E 3} (hx : x ∈ planeSet p a ∩ planeSet q b) (hmin : ∀ y ∈ planeSet p a ∩ planeSet q b, ‖x‖ ≤ ‖y‖) :
    inner ℝ (crossE a b) x = (0 : ℝ) := by
  obtain ⟨d, hd⟩ : ∃ d, d = crossE a b := ⟨_, rfl⟩
  have hmem : ∀ t : ℝ, x + t • d ∈ planeSet p a ∩ planeSet q b := fun t => by
    obtain ⟨h1, h2⟩ := hx
    rw [mem_planeSet] at h1 h2
    constructor
    · rw [mem_planeSet, show x + t • d - p = (x - p) + t • d by abel, inner_add_right, h1, real_inner_smul_right, hd,
        real_inner_comm, crossE_inner_left]; ring
    · rw [mem_planeSet, show x + t • d - q = (x - q) + t • d by abel, inner_add_right, h2, real_inner_smul_right, hd,
        real_inner_comm, crossE_inner_right]; ring
  rw [← hd]
  by_cases hd0 : d = 0
  · rw [hd0, inner_zero_left]
  have hdn : 0 < ‖d‖ ^ 2 := by have := norm_pos_iff.mpr hd0; positivity
  obtain ⟨c, hc⟩ : ∃ c : ℝ, c = inner ℝ d x := ⟨_, rfl⟩
  rw [← hc]
  have h1 := hmin _ (hmem (-(c / ‖d‖ ^ 2)))
  have h2 : ‖x‖ ^ 2 ≤ ‖x + (-(c / ‖d‖ ^ 2)) • d‖ ^ 2 := by gcongr
  rw [norm_add_sq_real, real_inner_smul_right, real_inner_comm, ← hc, norm_smul, mul_pow, Real.norm_eq_abs, sq_abs] at h2
  have h3 : (-(c / ‖d‖ ^ 2)) ^ 2 * ‖d‖ ^ 2 = c ^ 2 / ‖d‖ ^ 2 := by field_simp
  rw [h3, show 2 * (-(c / ‖d‖ ^ 2) * c) = -2 * (c ^ 2 / ‖d‖ ^ 2) by ring] at h2
  have h4 : c ^ 2 / ‖d‖ ^ 2 ≤ 0 := by linarith
  rw [div_le_iff₀ hdn, zero_mul] at h4
  exact pow_eq_zero_iff (two_ne_zero) |>.mp (le_antisymm h4 (sq_nonneg c))

/-- The error of the solution, in terms of the residual `T`. -/
theorem kkt_arith {X P' e T B Θ σ : ℝ} (hσ : 0 < σ) (hΘ0 : 0 ≤ Θ) (hΘ : Θ ≤ 1 / 200) (hT : T ≤ 1696 / 100 * Θ * σ * P')
    (he : e ≤ 3 * T / σ + B) (hP' : P' ≤ X + e) (he0 : 0 ≤ e) (hX : 0 ≤ X) (hB : 0 ≤ B) :
    e ≤ 70 * Θ * X + 3 / 2 * B ∧ P' ≤ 135 / 100 * X + 3 / 2 * B := by
  have h1 : 3 * T / σ ≤ 5088 / 100 * (Θ * P') := by
    rw [div_le_iff₀ hσ]; linarith
  have h2 : Θ * P' ≤ Θ * (X + e) := mul_le_mul_of_nonneg_left hP' hΘ0
  have h3 : Θ * e ≤ 1 / 200 * e := mul_le_mul_of_nonneg_right hΘ he0
  have h4 : 0 ≤ Θ * X := by positivity
  have h5 : Θ * X ≤ 1 / 200 * X := mul_le_mul_of_nonneg_right hΘ hX
  have h6 : e ≤ 70 * Θ * X + 3 / 2 * B := by linarith
  exact ⟨h6, by linarith⟩

theorem frob_kkt_le {a b : E 3} {N : ℝ} (hN : 2 ≤ N) (ha : ‖a‖ ≤ N) (hb : ‖b‖ ≤ N) :
    frob (List.ofFn (kktMatrix a b)) ≤ 265 / 100 * N := by
  refine le_of_sq_le_sq ?_ (by linarith)
  rw [frob_kkt]
  have h1 : ‖a‖ ^ 2 ≤ N ^ 2 := by gcongr
  have h2 : ‖b‖ ^ 2 ≤ N ^ 2 := by gcongr
  have h3 : 2 ^ 2 ≤ N ^ 2 := by gcongr
  nlinarith

set_option maxHeartbeats 2000000 in
/-- C117: `plane.intersect_plane(other)` under rounding, with a backward stable `np.linalg.solve` (relative perturbation `η`).
For planes with normals `a`, `b` of length between `m` and `N` (with `m ≤ 2 ≤ N`) at an angle with sine `s` that is not negligible,
and `200 η N ≤ (s m)²`, a line is returned.  With `x` the common point nearest to the origin, the line's point is

* within `70 η N / (s m)² ‖x‖ + 12 u (‖p‖ + ‖q‖) / s` of `x`,
* within `23 η N / (s m²) (‖x‖ + 9 u (‖p‖ + ‖q‖) / s) + 8 u ‖p‖` of the first plane, and likewise of the second,

and its direction is within `3 u ‖a‖ ‖b‖` of `a × b`. -/
theorem C117_intersect_plane (h : StdRounding u fl) (hu : u ≤ 1 / 10 ^ 11) [ext : NumpyExt ℝ] [hS : StableSolve η] {p q a b x : E 3}
    {P Q : Plane ℝ} (hP : @Plane.new ℝ (rounded fl) (arr p) (arr a) = .ok P) (hQ : @Plane.new ℝ (rounded fl) (arr q) (arr b) = .ok Q)
    (hc : |cosE a b| < 1 - 15 / 10 ^ 10) {s m N : ℝ} (hs : s = √(1 - cosE a b ^ 2)) (hm : 0 < m) (hm2 : m ≤ 2) (hma : m ≤ ‖a‖)
    (hmb : m ≤ ‖b‖) (hN : 2 ≤ N) (hNa : ‖a‖ ≤ N) (hNb : ‖b‖ ≤ N) (hη : 200 * η * N ≤ (s * m) ^ 2)
    (hx : x ∈ planeSet p a ∩ planeSet q b) (hmin : ∀ y ∈ planeSet p a ∩ planeSet q b, ‖x‖ ≤ ‖y‖) :
    ∃ y d : E 3, @Plane.intersectPlane ℝ (rounded fl) ext (@Tol.default ℝ (rounded fl)) P Q = .ok ⟨arr y, arr d⟩ ∧
      dist y x ≤ 70 * η * N / (s * m) ^ 2 * ‖x‖ + 12 * u * (‖p‖ + ‖q‖) / s ∧
      Metric.infDist y (planeSet p a) ≤ 23 * η * N / (s * m ^ 2) * (‖x‖ + 9 * u * (‖p‖ + ‖q‖) / s) + 8 * u * ‖p‖ ∧
      Metric.infDist y (planeSet q b) ≤ 23 * η * N / (s * m ^ 2) * (‖x‖ + 9 * u * (‖p‖ + ‖q‖) / s) + 8 * u * ‖q‖ ∧
      ‖d - crossE a b‖ ≤ 3 * u * (‖a‖ * ‖b‖) := by
  have hu0 := h.nonneg
  have hη0 := hS.nonneg
  have hu100 : u ≤ 1 / 100 := hu.trans (by norm_num)
  have ha : a ≠ 0 := norm_pos_iff.mp (hm.trans_le hma)
  have hb : b ≠ 0 := norm_pos_iff.mp (hm.trans_le hmb)
  have ha0 : 0 < ‖a‖ := norm_pos_iff.mpr ha
  have hb0 : 0 < ‖b‖ := norm_pos_iff.mpr hb
  have hPe : P = ⟨arr p, arr a⟩ := by
    have := ((C73_constructors h (by linarith) p a).1 ha).2
    rw [this] at hP; cases hP; rfl
  have hQe : Q = ⟨arr q, arr b⟩ := by
    have := ((C73_constructors h (by linarith) q b).1 hb).2
    rw [this] at hQ; cases hQ; rfl
  subst hPe hQe
  have hsin : (1 : ℝ) / 100000 < s := by
    rw [hs, Real.lt_sqrt (by norm_num), ← sq_abs (cosE a b)]
    have h0 := abs_nonneg (cosE a b)
    have h1 := mul_le_mul_of_nonneg_left hc.le h0
    norm_num at hc h1 ⊢
    linarith
  have hs0 : 0 < s := by linarith [show (0:ℝ) < 1 / 100000 by norm_num]
  have hs1 : s ≤ 1 := by
    rw [hs, Real.sqrt_le_iff]; exact ⟨zero_le_one, by nlinarith [sq_nonneg (cosE a b)]⟩
  have hcr : ‖crossE a b‖ = ‖a‖ * ‖b‖ * s := by
    have := sine_cross le_rfl ha hb
    rwa [pad3_self, pad3_self, ← hs] at this
  have hσ : 0 < s * m := by positivity
  have hσ2 : s * m ≤ 2 := by nlinarith
  -- the perturbation of the matrix
  obtain ⟨F, hF⟩ : ∃ F, F = frob (List.ofFn (kktMatrix a b)) := ⟨_, rfl⟩
  have hFN : F ≤ 265 / 100 * N := by rw [hF]; exact frob_kkt_le hN hNa hNb
  have hF0 : 0 ≤ F := by rw [hF]; exact frob_nonneg _
  obtain ⟨Θ, hΘ⟩ : ∃ Θ, Θ = η * N / (s * m) ^ 2 := ⟨_, rfl⟩
  have hΘ0 : 0 ≤ Θ := by rw [hΘ]; positivity
  have hΘ1 : Θ ≤ 1 / 200 := by rw [hΘ, div_le_iff₀ (by positivity)]; linarith
  have hΘσ : Θ * (s * m) ^ 2 = η * N := by rw [hΘ]; field_simp
  obtain ⟨ω, hω⟩ : ∃ ω, ω = 265 / 100 * Θ * (s * m) := ⟨_, rfl⟩
  have hω0 : 0 ≤ ω := by rw [hω]; positivity
  have hωle : ω ≤ 27 / 1000 := by
    rw [hω]
    calc 265 / 100 * Θ * (s * m) ≤ 265 / 100 * (1 / 200) * 2 := by gcongr
      _ ≤ _ := by norm_num
  have hω2 : 40 * ω ≤ s * m := by
    have := mul_le_mul_of_nonneg_right hΘ1 hσ.le
    rw [hω]; linarith
  have hηF : η * F ≤ ω * (s * m) := by
    calc η * F ≤ η * (265 / 100 * N) := by gcongr
      _ = 265 / 100 * (Θ * (s * m) ^ 2) := by rw [hΘσ]; ring
      _ = _ := by rw [hω]; ring
  obtain ⟨α, hα⟩ : ∃ α, α = @dotv ℝ (rounded fl) (arr p) (arr a) := ⟨_, rfl⟩
  obtain ⟨β, hβ⟩ : ∃ β, β = @dotv ℝ (rounded fl) (arr q) (arr b) := ⟨_, rfl⟩
  have k4 := exp_eps_le2 h (k := 0 + 0 + 1 + (3 : ℕ)) (by norm_num) (by push_cast; linarith)
  have eα : |α - inner ℝ p a| ≤ 8 * u * ‖p‖ * ‖a‖ := by
    have := h.dotv_abs' le_rfl le_rfl (CRP.refl (eps u) p) (CRP.refl (eps u) a)
    rw [← hα] at this
    have h2 := mul_le_mul_of_nonneg_right k4 (by positivity : 0 ≤ ‖p‖ * ‖a‖)
    push_cast at this h2
    linarith
  have eβ : |β - inner ℝ q b| ≤ 8 * u * ‖q‖ * ‖b‖ := by
    have := h.dotv_abs' le_rfl le_rfl (CRP.refl (eps u) q) (CRP.refl (eps u) b)
    rw [← hβ] at this
    have h2 := mul_le_mul_of_nonneg_right k4 (by positivity : 0 ≤ ‖q‖ * ‖b‖)
    push_cast at this h2
    linarith
  obtain ⟨A', z, hA', hz, hsol⟩ := hS.solve (kktMatrix a b) (WithLp.toLp 2 ![0, 0, 0, α, β]) fun A' hA' x hx =>
    kkt_regular hcr hs0 hs1 hm hm2 hma hmb hω0 hωle hω2 (hA'.trans (by rw [← hF]; exact hηF)) x hx
  obtain ⟨T, hT, h1, h2, h3, -⟩ := kkt_core hcr hs0 hs1 hm hm2 hma hmb hω0 hωle (hA'.trans (by rw [← hF]; exact hηF)) hz
  obtain ⟨y, hy⟩ : ∃ y : E 3, y = vec3 (z 0) (z 1) (z 2) := ⟨_, rfl⟩
  rw [← hy] at hT h1 h2 h3
  have hT0 : 0 ≤ T := (abs_nonneg _).trans h1
  -- the direction
  obtain ⟨d, hd, ed⟩ := cross_rd le_rfl h le_rfl (CRP.refl (eps u) a) (CRP.refl (eps u) b)
  rw [exp_nat h (m := 2) (by norm_num), pad3_self, pad3_self] at ed
  have h3' := sqrt2_exp h (k := 2) (by norm_num) (by push_cast; linarith)
  have ed' : ‖d - crossE a b‖ ≤ 3 * u * (‖a‖ * ‖b‖) :=
    ed.trans (mul_le_mul_of_nonneg_right (by push_cast at h3'; linarith) (by positivity))
  have hd0 : d ≠ 0 := by
    rintro rfl
    rw [zero_sub, norm_neg, hcr] at ed'
    have hab : 0 < ‖a‖ * ‖b‖ := by positivity
    have : s ≤ 3 * u := by
      refine le_of_mul_le_mul_right ?_ hab
      linarith
    norm_num at hu hsin
    linarith
  -- the residuals
  obtain ⟨hxa, hxb⟩ := hx
  have hxd := nearest_perp ⟨hxa, hxb⟩ hmin
  rw [mem_planeSet, inner_sub_right] at hxa hxb
  have ga : |inner ℝ a (y - x)| ≤ (T / m + 8 * u * ‖p‖) * ‖a‖ := by
    have e1 : (inner ℝ a (y - x) : ℝ) = (inner ℝ a y - α) + (α - inner ℝ p a) := by
      rw [inner_sub_right, real_inner_comm a p]; linarith
    rw [e1]
    have e2 := abs_add_le (inner ℝ a y - α) (α - inner ℝ p a)
    have e3 : T ≤ T / m * ‖a‖ := by rw [div_mul_eq_mul_div, le_div_iff₀ hm]; gcongr
    linarith
  have gb : |inner ℝ b (y - x)| ≤ (T / m + 8 * u * ‖q‖) * ‖b‖ := by
    have e1 : (inner ℝ b (y - x) : ℝ) = (inner ℝ b y - β) + (β - inner ℝ q b) := by
      rw [inner_sub_right, real_inner_comm b q]; linarith
    rw [e1]
    have e2 := abs_add_le (inner ℝ b y - β) (β - inner ℝ q b)
    have e3 : T ≤ T / m * ‖b‖ := by rw [div_mul_eq_mul_div, le_div_iff₀ hm]; gcongr
    linarith
  have gd : |inner ℝ (crossE a b) (y - x)| ≤ T / 2 * ‖crossE a b‖ := by
    rw [inner_sub_right, hxd, sub_zero]; linarith
  have key := norm_le_comps hcr ha hb hs0 ga gb (by positivity) gd
  obtain ⟨B, hB⟩ : ∃ B, B = 8 * u * (‖p‖ + ‖q‖) / s := ⟨_, rfl⟩
  have hB0 : 0 ≤ B := by rw [hB]; positivity
  have key2 : ‖y - x‖ ≤ 3 * T / (s * m) + B := by
    have e1 : (T / m + 8 * u * ‖p‖ + (T / m + 8 * u * ‖q‖)) / s + T / 2 = 2 * T / (s * m) + B + T / 2 := by
      rw [hB]; field_simp; ring
    rw [e1] at key
    have e2 : T / 2 ≤ T / (s * m) := by gcongr
    have e3 : 3 * T / (s * m) = 2 * T / (s * m) + T / (s * m) := by ring
    linarith
  have hTω : T ≤ 1696 / 100 * Θ * (s * m) * ‖y‖ := by
    refine hT.trans (le_of_eq ?_)
    rw [hω]; ring
  have hyx : ‖y‖ ≤ ‖x‖ + ‖y - x‖ := by
    calc ‖y‖ = ‖x + (y - x)‖ := by congr 1; abel
      _ ≤ _ := norm_add_le _ _
  obtain ⟨f1, f2⟩ := kkt_arith hσ hΘ0 hΘ1 hTω key2 hyx (norm_nonneg _) (norm_nonneg _) hB0
  have hTm : T / m ≤ 23 * η * N / (s * m ^ 2) * (‖x‖ + 9 * u * (‖p‖ + ‖q‖) / s) := by
    have e1 : 23 * η * N / (s * m ^ 2) = 23 * Θ * s := by rw [hΘ]; field_simp
    have e2 : ‖x‖ + 9 * u * (‖p‖ + ‖q‖) / s = ‖x‖ + 9 / 8 * B := by rw [hB]; field_simp
    rw [e1, e2, div_le_iff₀ hm]
    have e3 : Θ * (s * m) * ‖y‖ ≤ Θ * (s * m) * (135 / 100 * ‖x‖ + 3 / 2 * B) := by
      exact mul_le_mul_of_nonneg_left f2 (by positivity)
    have e4 : 0 ≤ Θ * (s * m) * ‖x‖ := by positivity
    have e5 : 0 ≤ Θ * (s * m) * B := by positivity
    linarith
  refine ⟨y, d, ?_, ?_, ?_, ?_, ed'⟩
  · have hp := not_parallel_rd le_rfl h hu ha hb hc
    have hL := ((C73_constructors h (by linarith) y d).1 hd0).1
    have hz3 : (arr z).take 3 = arr y := by
      rw [hy, arr_vec3]; simp [arr, List.ofFn_succ]
    have hb5 : arr (WithLp.toLp 2 ![0, 0, 0, α, β] : E 5) = [0, 0, 0, α, β] := by simp [arr, List.ofFn_succ]
    rw [rows_kkt, hb5] at hsol
    have hd1 := dot_rd fl p a
    have hd2 := dot_rd fl q b
    rw [← hα] at hd1
    rw [← hβ] at hd2
    simp only [Plane.intersectPlane, hp, ok_bind, Bool.false_eq_true, if_false]
    rw [arr3 a] at hd1 hd ⊢
    rw [arr3 b] at hd2 hd ⊢
    simp only [hd1, hd2, ok_bind, two_rd, zero_rd, hsol, hz3, new1D_rd, hd, hL]
  · rw [dist_eq_norm]
    refine f1.trans (le_of_eq ?_)
    rw [hΘ, hB]; ring
  · rw [infDist_planeSet p ha, div_le_iff₀ ha0, real_inner_comm]
    have e1 : (inner ℝ a (y - p) : ℝ) = inner ℝ a (y - x) := by rw [inner_sub_right, inner_sub_right]; linarith
    rw [e1]
    exact ga.trans (mul_le_mul_of_nonneg_right (by linarith) ha0.le)
  · rw [infDist_planeSet q hb, div_le_iff₀ hb0, real_inner_comm]
    have e1 : (inner ℝ b (y - q) : ℝ) = inner ℝ b (y - x) := by rw [inner_sub_right, inner_sub_right]; linarith
    rw [e1]
    exact gb.trans (mul_le_mul_of_nonneg_right (by linarith) hb0.le)

/-- C117: planes whose normals are parallel up to `5·10⁻¹⁰` in the cosine raise `ValueError`, whatever the rounding. -/
theorem C117_parallel (h : StdRounding u fl) (hu : u ≤ 1 / 10 ^ 11) [ext : NumpyExt ℝ] {p q a b : E 3} {P Q : Plane ℝ}
    (hP : @Plane.new ℝ (rounded fl) (arr p) (arr a) = .ok P) (hQ : @Plane.new ℝ (rounded fl) (arr q) (arr b) = .ok Q)
    (hc : 1 - 5 / 10 ^ 10 ≤ |cosE a b|) :
    ∃ msg, @Plane.intersectPlane ℝ (rounded fl) ext (@Tol.default ℝ (rounded fl)) P Q = .error (.valueError msg) := by
  have hu2 : u ≤ 1 / 2 := hu.trans (by norm_num)
  have hPe : P.normal = arr a := by
    by_cases ha : a = 0
    · rw [((C73_constructors h hu2 p a).2 ha).2] at hP; cases hP
    · rw [((C73_constructors h hu2 p a).1 ha).2] at hP; cases hP; rfl
  have hQe : Q.normal = arr b := by
    by_cases hb : b = 0
    · rw [((C73_constructors h hu2 q b).2 hb).2] at hQ; cases hQ
    · rw [((C73_constructors h hu2 q b).1 hb).2] at hQ; cases hQ; rfl
  obtain ⟨r, hr, h1, -⟩ := C77_is_parallel (n := 3) h (by
    have := h.nonneg
    norm_num at hu ⊢; linarith) a b
  have hr1 := h1 (Or.inr (Or.inr (by norm_num at hc ⊢; linarith)))
  refine ⟨"The planes must not be parallel.", ?_⟩
  simp only [Plane.intersectPlane, hPe, hQe, hr, ok_bind, hr1, if_true]

/-- The planes `z = 1` and `x = 2` in binary64, with an exact `solve`: the line along `y` through a point within `10⁻¹⁴` of
`(2, 0, 1)`. -/
example (ext : NumpyExt ℝ) (hl : @LawfulNumpy ext) : ∃ (P Q : Plane ℝ) (y d : E 3),
    @Plane.new ℝ (rounded (leftToRight (roundNearest 53))) (arr (vec3 0 0 1)) (arr (vec3 0 0 1)) = .ok P ∧
    @Plane.new ℝ (rounded (leftToRight (roundNearest 53))) (arr (vec3 2 0 0)) (arr (vec3 1 0 0)) = .ok Q ∧
    @Plane.intersectPlane ℝ (rounded (leftToRight (roundNearest 53))) ext (@Tol.default ℝ (rounded (leftToRight (roundNearest 53)))) P Q =
      .ok ⟨arr y, arr d⟩ ∧ dist y (vec3 2 0 1) ≤ 1 / 10 ^ 14 ∧ ‖d - vec3 0 1 0‖ ≤ 1 / 10 ^ 14 := by
  have := @StableSolve.of_lawful ext hl
  have hs := std53
  have n1 : ‖(vec3 0 0 1 : E 3)‖ = 1 := by
    rw [← Real.sqrt_sq (norm_nonneg _), norm_sq3]; simp [vec3]
  have n2 : ‖(vec3 1 0 0 : E 3)‖ = 1 := by
    rw [← Real.sqrt_sq (norm_nonneg _), norm_sq3]; simp [vec3]
  have n3 : ‖(vec3 2 0 0 : E 3)‖ = 2 := by
    rw [← Real.sqrt_sq (norm_nonneg _), norm_sq3]; simp [vec3]
  have z1 : (vec3 0 0 1 : E 3) ≠ 0 := by rw [← norm_pos_iff, n1]; norm_num
  have z2 : (vec3 1 0 0 : E 3) ≠ 0 := by rw [← norm_pos_iff, n2]; norm_num
  have hc : cosE (vec3 0 0 1 : E 3) (vec3 1 0 0) = 0 := by rw [cosE, inner3]; simp [vec3]
  have hP := ((C73_constructors hs (by norm_num) (vec3 0 0 1) (vec3 0 0 1)).1 z1).2
  have hQ := ((C73_constructors hs (by norm_num) (vec3 2 0 0) (vec3 1 0 0)).1 z2).2
  have hcr : crossE (vec3 0 0 1) (vec3 1 0 0) = vec3 0 1 0 := by ext i; fin_cases i <;> simp [crossE, vec3]
  obtain ⟨y, d, h1, h2, -, -, h3⟩ := C117_intersect_plane (η := 0) hs (by norm_num) hP hQ (x := vec3 2 0 1) (s := 1) (m := 1) (N := 2)
    (by rw [hc]; norm_num) (by rw [hc]; simp) (by norm_num) (by norm_num) n1.ge n2.ge le_rfl (by rw [n1]; norm_num)
    (by rw [n2]; norm_num) (by norm_num)
    ⟨by rw [mem_planeSet, inner3]; simp [vec3], by rw [mem_planeSet, inner3]; simp [vec3]⟩ (by
      rintro w ⟨hw1, hw2⟩
      rw [mem_planeSet, inner3] at hw1 hw2
      simp [vec3] at hw1 hw2
      apply le_of_sq_le_sq _ (norm_nonneg _)
      rw [norm_sq3, norm_sq3]
      have e1 : w 2 = 1 := by linarith
      have e2 : w 0 = 2 := by linarith
      rw [e1, e2]
      simp [vec3]
      positivity)
  refine ⟨_, _, y, d, hP, hQ, h1, h2.trans ?_, ?_⟩
  · rw [n1, n3]; norm_num
  · rw [hcr, n1, n2] at h3
    exact h3.trans (by norm_num)

end SkSpatial
