import Mathlib.Analysis.SpecialFunctions.Trigonometric.Bounds
import Verif.Props.Rounding7
/-! # C90: angles under rounding -/

namespace SkSpatial
open StdRounding
open scoped EuclideanGeometry

variable {u : ℝ} {fl : Arith} {n : ℕ}

/-- How much the arc cosine magnifies an error of its argument. -/
theorem arccos_sub_le {a b : ℝ} (ha : |a| ≤ 1) (hb : |b| ≤ 1) :
    |Real.arccos a - Real.arccos b| ≤ Real.pi * Real.sqrt (|a - b| / 2) := by
  have key : ∀ a b : ℝ, |a| ≤ 1 → |b| ≤ 1 → b ≤ a →
      Real.arccos b - Real.arccos a ≤ Real.pi * Real.sqrt (|a - b| / 2) := by
    intro a b ha hb hab
    have ha' := abs_le.mp ha
    have hb' := abs_le.mp hb
    obtain ⟨α, hα⟩ : ∃ α, α = Real.arccos a := ⟨_, rfl⟩
    obtain ⟨β, hβ⟩ : ∃ β, β = Real.arccos b := ⟨_, rfl⟩
    have hca : Real.cos α = a := by rw [hα]; exact Real.cos_arccos ha'.1 ha'.2
    have hcb : Real.cos β = b := by rw [hβ]; exact Real.cos_arccos hb'.1 hb'.2
    have a0 : 0 ≤ α := by rw [hα]; exact Real.arccos_nonneg a
    have b1 : β ≤ Real.pi := by rw [hβ]; exact Real.arccos_le_pi b
    have hle : α ≤ β := by rw [hα, hβ]; exact Real.antitone_arccos hab
    rw [← hα, ← hβ]
    obtain ⟨t, ht⟩ : ∃ t, t = (β - α) / 2 := ⟨_, rfl⟩
    have ht0 : 0 ≤ t := by rw [ht]; linarith
    have ht1 : t ≤ Real.pi / 2 := by rw [ht]; linarith
    have hpi := Real.pi_pos
    have h1 : 2 / Real.pi * t ≤ Real.sin t := Real.mul_le_sin ht0 ht1
    have h2 : Real.sin t ≤ Real.sin ((α + β) / 2) := by
      by_cases hc : (α + β) / 2 ≤ Real.pi / 2
      · exact Real.sin_le_sin_of_le_of_le_pi_div_two (by linarith) hc (by rw [ht]; linarith)
      · rw [← Real.sin_pi_sub ((α + β) / 2)]
        exact Real.sin_le_sin_of_le_of_le_pi_div_two (by linarith) (by linarith) (by rw [ht]; linarith)
    have h3 : a - b = 2 * Real.sin ((α + β) / 2) * Real.sin t := by
      rw [← hca, ← hcb, Real.cos_sub_cos, ht, show (α - β) / 2 = -((β - α) / 2) by ring, Real.sin_neg]
      ring
    have h0 : 0 ≤ 2 / Real.pi * t := by positivity
    have h4 : 2 * (2 / Real.pi * t) ^ 2 ≤ a - b := by
      rw [h3]
      nlinarith
    have h5 : 2 / Real.pi * t ≤ Real.sqrt (|a - b| / 2) := by
      apply Real.le_sqrt_of_sq_le
      rw [abs_of_nonneg (by linarith)]
      linarith
    have h6 : β - α = Real.pi * (2 / Real.pi * t) := by rw [ht]; field_simp
    rw [h6]
    exact mul_le_mul_of_nonneg_left h5 hpi.le
  rcases le_total b a with h | h
  · rw [abs_sub_comm, abs_of_nonneg (sub_nonneg.mpr (Real.antitone_arccos h))]
    exact key a b ha hb h
  · rw [abs_of_nonneg (sub_nonneg.mpr (Real.antitone_arccos h)), abs_sub_comm a b]
    exact key b a hb ha h

theorem mathAcos_rd (fl : Arith) (c : ℝ) : @mathAcos ℝ (rounded fl) c =
    if |c| ≤ 1 then .ok (fl (Real.arccos c)) else .error (.valueError "math domain error") := by
  simp only [mathAcos, lt_rd, ofInt_rd, one_rd, acos_rd]
  by_cases h : |c| ≤ 1
  · have := abs_le.mp h
    rw [if_pos h, if_neg]
    simpa using this
  · rw [if_neg h, if_pos]
    by_contra hc
    apply h
    rw [abs_le]
    simpa using hc

theorem acos_error (h : StdRounding u fl) {c θ δ : ℝ} (hc : |c| ≤ 1) (hθ0 : 0 ≤ θ) (hθ : θ ≤ Real.pi)
    (hd : |c - Real.cos θ| ≤ δ) :
    |fl (Real.arccos c) - θ| ≤ Real.pi * (Real.sqrt (δ / 2) + u) := by
  have h1 := h.err (Real.arccos c)
  rw [abs_of_nonneg (Real.arccos_nonneg c)] at h1
  have h2 := arccos_sub_le hc (Real.abs_cos_le_one θ)
  rw [Real.arccos_cos hθ0 hθ] at h2
  have h3 : Real.sqrt (|c - Real.cos θ| / 2) ≤ Real.sqrt (δ / 2) := Real.sqrt_le_sqrt (by linarith)
  have hpi := Real.pi_pos
  have h4 : u * Real.arccos c ≤ u * Real.pi := mul_le_mul_of_nonneg_left (Real.arccos_le_pi c) h.nonneg
  calc |fl (Real.arccos c) - θ| = |(fl (Real.arccos c) - Real.arccos c) + (Real.arccos c - θ)| := by ring_nf
    _ ≤ |fl (Real.arccos c) - Real.arccos c| + |Real.arccos c - θ| := abs_add_le _ _
    _ ≤ u * Real.pi + Real.pi * Real.sqrt (δ / 2) :=
        add_le_add (h1.trans h4) (h2.trans (mul_le_mul_of_nonneg_left h3 hpi.le))
    _ = _ := by ring

/-- C90: for non-zero vectors `angle_between` never raises under rounding (the cosine is clipped) and differs from
the exact angle by at most `π (√(δ/2) + u)`, `δ = (1-u)^(-(2n+6)) - 1`: about `2e-8` in binary64, the square root of
the unit roundoff and not the unit roundoff, because of `acos` at angles near `0` and `π`. -/
theorem C90_angle_between [NeZero n] (h : StdRounding u fl) (x y : E n) (hx : x ≠ 0) (hy : y ≠ 0) :
    ∃ θ, @Vec.angleBetween ℝ (rounded fl) (arr x) (arr y) = .ok θ ∧
      |θ - InnerProductGeometry.angle x y| ≤
        Real.pi * (Real.sqrt ((1 / (1 - u) ^ (2 * n + 6) - 1) / 2) + u) := by
  obtain ⟨c, hc, hc1, he⟩ := C77_cosine_error h x y hx hy
  refine ⟨fl (Real.arccos c), ?_, ?_⟩
  · simp only [Vec.angleBetween, hc, ok_bind, mathAcos_rd, hc1, if_true]
  · rw [cosE_eq_cos] at he
    exact acos_error h hc1 (InnerProductGeometry.angle_nonneg _ _) (InnerProductGeometry.angle_le_pi _ _) he

/-- A rounded quotient: numerator with absolute, denominator with relative error. -/
theorem quot_error (h : StdRounding u fl) {N N' M D D' k j : ℝ} (hk : 0 ≤ k) (hj : 0 ≤ j) (hD : 0 < D)
    (hM : |N| ≤ M) (hN : |N' - N| ≤ (Real.exp (k * eps u) - 1) * M) (hD' : RP (eps u) j D' D) :
    |fl (N' / D') - N / D| ≤ (Real.exp ((k + j + 1) * eps u) - 1) * (M / D) := by
  have hε := h.eps_nonneg
  obtain ⟨δ, h1, h2⟩ := h.step ((RP.refl (eps u) N').div hD')
  rw [h2]
  obtain ⟨A, hA⟩ : ∃ A, A = Real.exp (k * eps u) := ⟨_, rfl⟩
  obtain ⟨B, hB⟩ : ∃ B, B = Real.exp ((0 + j + 1) * eps u) := ⟨_, rfl⟩
  have hAB : Real.exp ((k + j + 1) * eps u) = A * B := by
    rw [hA, hB, ← Real.exp_add]; congr 1; ring
  have hexp : |Real.exp δ - 1| ≤ B - 1 := (RP.abs_exp_sub_one_le δ).trans (by
    rw [hB]; linarith [Real.exp_le_exp.mpr h1])
  have hB1 : 1 ≤ B := by rw [hB]; exact Real.one_le_exp (by positivity)
  have hA1 : 1 ≤ A := by rw [hA]; exact Real.one_le_exp (by positivity)
  rw [← hA] at hN
  rw [hAB]
  have hM0 : 0 ≤ M := (abs_nonneg N).trans hM
  have hND : |N / D| ≤ M / D := by
    rw [abs_div, abs_of_pos hD]; exact div_le_div_of_nonneg_right hM hD.le
  have hr : |N' / D - N / D| ≤ (A - 1) * (M / D) := by
    rw [← sub_div, abs_div, abs_of_pos hD, ← mul_div_assoc]; exact div_le_div_of_nonneg_right hN hD.le
  have hDP : |N' / D| ≤ A * (M / D) := by
    calc |N' / D| = |(N' / D - N / D) + N / D| := by ring_nf
      _ ≤ _ := abs_add_le _ _
      _ ≤ _ := by linarith
  have hMD : 0 ≤ M / D := by positivity
  calc |N' / D * Real.exp δ - N / D| = |N' / D * (Real.exp δ - 1) + (N' / D - N / D)| := by ring_nf
    _ ≤ |N' / D * (Real.exp δ - 1)| + |N' / D - N / D| := abs_add_le _ _
    _ = |N' / D| * |Real.exp δ - 1| + |N' / D - N / D| := by rw [abs_mul]
    _ ≤ (A * (M / D)) * (B - 1) + (A - 1) * (M / D) :=
        add_le_add (mul_le_mul hDP hexp (abs_nonneg _) (by positivity)) hr
    _ = (A * B - 1) * (M / D) := by ring

/-- A rounded difference of two approximated non-negative numbers. -/
theorem diff_error (h : StdRounding u fl) {a b x y k : ℝ} (hk : 0 ≤ k) (hx : 0 ≤ x) (hy : 0 ≤ y)
    (ha : RP (eps u) k a x) (hb : RP (eps u) k b y) :
    |fl (a - b) - (x - y)| ≤ (Real.exp ((k + 1) * eps u) - 1) * (x + y) := by
  have hε := h.eps_nonneg
  have e1 := ha.abs_sub_le
  have e2 := hb.abs_sub_le
  rw [abs_of_nonneg hx] at e1
  rw [abs_of_nonneg hy] at e2
  have e3 := (h.rp (a - b)).abs_sub_le
  obtain ⟨A, hA⟩ : ∃ A, A = Real.exp (k * eps u) := ⟨_, rfl⟩
  obtain ⟨B, hB⟩ : ∃ B, B = Real.exp (1 * eps u) := ⟨_, rfl⟩
  have hAB : Real.exp ((k + 1) * eps u) = A * B := by
    rw [hA, hB, ← Real.exp_add]; congr 1; ring
  have hB1 : 1 ≤ B := by rw [hB]; exact Real.one_le_exp (by positivity)
  have hA1 : 1 ≤ A := by rw [hA]; exact Real.one_le_exp (by positivity)
  rw [← hA] at e1 e2
  rw [← hB] at e3
  rw [hAB]
  have e4 : |a - b| ≤ A * (x + y) := by
    have := abs_le.mp e1
    have := abs_le.mp e2
    rw [abs_le]; constructor <;> nlinarith
  calc |fl (a - b) - (x - y)| = |(fl (a - b) - (a - b)) + ((a - x) + (y - b))| := by ring_nf
    _ ≤ |fl (a - b) - (a - b)| + |(a - x) + (y - b)| := abs_add_le _ _
    _ ≤ |fl (a - b) - (a - b)| + (|a - x| + |b - y|) := by
        gcongr; rw [abs_sub_comm b y]; exact abs_add_le _ _
    _ ≤ (B - 1) * (A * (x + y)) + ((A - 1) * x + (A - 1) * y) :=
        add_le_add (e3.trans (mul_le_mul_of_nonneg_left e4 (by linarith))) (add_le_add e1 e2)
    _ = _ := by ring

/-- The rounded law of cosines: `a` is the side opposite to the angle. -/
theorem lawOfCosines_rd (h : StdRounding u fl) {a b c x y z : ℝ} {k : ℝ} (hk : 0 ≤ k) (hy : 0 < y)
    (hz : 0 < z) (ha : RP (eps u) k a x) (hb : RP (eps u) k b y) (hc : RP (eps u) k c z) :
    |fl (fl (fl (fl (b * b) + fl (c * c)) - fl (a * a)) / fl (fl (2 * b) * c)) -
      (y ^ 2 + z ^ 2 - x ^ 2) / (2 * y * z)| ≤
        (Real.exp ((4 * k + 6) * eps u) - 1) * ((x ^ 2 + y ^ 2 + z ^ 2) / (2 * y * z)) := by
  have hε := h.eps_nonneg
  have sqp : ∀ {p q : ℝ}, RP (eps u) k p q → RP (eps u) (2 * k + 1) (fl (p * p)) (q ^ 2) := by
    intro p q hp
    have := h.step (hp.mul hp)
    rw [show k + k + 1 = 2 * k + 1 by ring] at this
    rw [pow_two]; exact this
  have s1 := h.step (RP.add (by positivity) (sqp hb) (sqp hc) (by positivity) (by positivity))
  have s2 : RP (eps u) (2 * k + 1 + 1) (fl (a * a)) (x ^ 2) := (sqp ha).mono hε (by linarith)
  have s3 := diff_error h (by positivity) (by positivity) (by positivity) s1 s2
  have s4 := h.step ((h.step ((RP.refl (eps u) 2).mul hb)).mul hc)
  have := quot_error h (k := 2 * k + 1 + 1 + 1) (j := 0 + k + 1 + k + 1) (M := y ^ 2 + z ^ 2 + x ^ 2) (by positivity) (by positivity)
    (by positivity : (0:ℝ) < 2 * y * z) (by
      rw [abs_le]; constructor <;> nlinarith [sq_nonneg x, sq_nonneg y, sq_nonneg z]) s3 s4
  rw [show 2 * k + 1 + 1 + 1 + (0 + k + 1 + k + 1) + 1 = 4 * k + 6 by ring,
    show y ^ 2 + z ^ 2 + x ^ 2 = x ^ 2 + y ^ 2 + z ^ 2 by ring] at this
  exact this

theorem cos_law (a b c : E n) (hab : a ≠ b) (hac : a ≠ c) :
    (dist c a ^ 2 + dist a b ^ 2 - dist b c ^ 2) / (2 * dist c a * dist a b) = Real.cos (∠ b a c) := by
  have hbc : dist b c ^ 2 = ‖b - a‖ ^ 2 - 2 * inner ℝ (b - a) (c - a) + ‖c - a‖ ^ 2 := by
    rw [dist_eq_norm, ← norm_sub_sq_real]; congr 2; abel
  have h1 : ‖b - a‖ ≠ 0 := norm_ne_zero_iff.mpr (sub_ne_zero.mpr hab.symm)
  have h2 : ‖c - a‖ ≠ 0 := norm_ne_zero_iff.mpr (sub_ne_zero.mpr hac.symm)
  have e : ((dist c a) ^ 2 + (dist a b) ^ 2 - (dist b c) ^ 2) / (2 * dist c a * dist a b) = cosE (b - a) (c - a) := by
    rw [hbc, dist_comm a b, dist_eq_norm, dist_eq_norm, cosE]
    field_simp
    ring
  rw [e, cosE_eq_cos]
  rfl

theorem lawCond_swap (a b c : E n) : lawCond a c b = lawCond a b c := by
  unfold lawCond
  rw [dist_comm c b, dist_comm b a, dist_comm a c]
  congr 1 <;> ring

theorem angle_aux (h : StdRounding u fl) {a b c : E n} (hab : a ≠ b) (hca : c ≠ a) {x y z : ℝ}
    (hx : RP (eps u) ((n + 5) / 2) x (dist b c)) (hy : RP (eps u) ((n + 5) / 2) y (dist c a))
    (hz : RP (eps u) ((n + 5) / 2) z (dist a b)) :
    ∃ w, fl (fl (fl (fl (y * y) + fl (z * z)) - fl (x * x)) / fl (fl (2 * y) * z)) = w ∧
      (|Real.cos (∠ b a c)| + (((1 - u) ^ (2 * n + 16))⁻¹ - 1) * lawCond a b c ≤ 1 → |w| ≤ 1) ∧
      (|w| ≤ 1 → |fl (Real.arccos w) - ∠ b a c| ≤
        Real.pi * (Real.sqrt ((((1 - u) ^ (2 * n + 16))⁻¹ - 1) * lawCond a b c / 2) + u)) := by
  have e := lawOfCosines_rd h (by positivity) (dist_pos.mpr hca) (dist_pos.mpr hab) hx hy hz
  rw [cos_law a b c hab hca.symm, h.exp_eps, show (4 * ((n + 5) / 2) + 6 : ℝ) = ((2 * n + 16 : ℕ) : ℝ) by push_cast; ring,
    Real.rpow_natCast] at e
  change _ ≤ _ * lawCond a b c at e
  refine ⟨_, rfl, fun hc => ?_, fun hw => ?_⟩
  · have := abs_sub_abs_le_abs_sub
      (fl (fl (fl (fl (y * y) + fl (z * z)) - fl (x * x)) / fl (fl (2 * y) * z))) (Real.cos (∠ b a c))
    linarith
  · exact acos_error h hw (EuclideanGeometry.angle_nonneg _ _ _) (EuclideanGeometry.angle_le_pi _ _ _) e

/-- C90: `triangle.angle('A')` under rounding either raises 'math domain error' (see `C88_triangle_angle_raises`) or
returns the angle with an error of at most `π (√(κ δ / 2) + u)`, where `δ = (1-u)^(-(2n+16)) - 1` and
`κ = (a² + b² + c²) / (2bc)`; it does not raise if `|cos A| + κ δ ≤ 1`.  The same for 'B' and 'C'. -/
theorem C90_triangle_angle [NeZero n] (h : StdRounding u fl) (hu : u ≤ 1 / 2) {ext : NumpyExt ℝ} {a b c : E n}
    {T : Triangle ℝ} (hT : @Triangle.new ℝ (rounded fl) ext (arr a) (arr b) (arr c) = .ok T)
    (hab : a ≠ b) (hbc : b ≠ c) (hca : c ≠ a) :
    ∀ v p q r, (v = "A" ∧ (p, q, r) = (a, b, c)) ∨ (v = "B" ∧ (p, q, r) = (b, c, a)) ∨
        (v = "C" ∧ (p, q, r) = (c, a, b)) →
      (@Triangle.angle ℝ (rounded fl) T v = .error (.valueError "math domain error") ∨
        ∃ θ, @Triangle.angle ℝ (rounded fl) T v = .ok θ ∧ |θ - ∠ q p r| ≤
          Real.pi * (Real.sqrt ((((1 - u) ^ (2 * n + 16))⁻¹ - 1) * lawCond p q r / 2) + u)) ∧
      (|Real.cos (∠ q p r)| + (((1 - u) ^ (2 * n + 16))⁻¹ - 1) * lawCond p q r ≤ 1 →
        ∃ θ, @Triangle.angle ℝ (rounded fl) T v = .ok θ) := by
  obtain rfl := triangle_new_rd hT
  obtain ⟨x, y, z, hl, hx, hy, hz⟩ := lengths_rp h hu hab hbc hca
  have fin : ∀ {p q r : E n} {w : ℝ} {v : String},
      @Triangle.angle ℝ (rounded fl) ⟨arr a, arr b, arr c⟩ v = @mathAcos ℝ (rounded fl) w →
      (|Real.cos (∠ q p r)| + (((1 - u) ^ (2 * n + 16))⁻¹ - 1) * lawCond p q r ≤ 1 → |w| ≤ 1) →
      (|w| ≤ 1 → |fl (Real.arccos w) - ∠ q p r| ≤
        Real.pi * (Real.sqrt ((((1 - u) ^ (2 * n + 16))⁻¹ - 1) * lawCond p q r / 2) + u)) →
      (@Triangle.angle ℝ (rounded fl) ⟨arr a, arr b, arr c⟩ v = .error (.valueError "math domain error") ∨
        ∃ θ, @Triangle.angle ℝ (rounded fl) ⟨arr a, arr b, arr c⟩ v = .ok θ ∧ |θ - ∠ q p r| ≤
          Real.pi * (Real.sqrt ((((1 - u) ^ (2 * n + 16))⁻¹ - 1) * lawCond p q r / 2) + u)) ∧
      (|Real.cos (∠ q p r)| + (((1 - u) ^ (2 * n + 16))⁻¹ - 1) * lawCond p q r ≤ 1 →
        ∃ θ, @Triangle.angle ℝ (rounded fl) ⟨arr a, arr b, arr c⟩ v = .ok θ) := by
    intro p q r w v hv h1 h2
    rw [hv, mathAcos_rd]
    by_cases hw : |w| ≤ 1
    · rw [if_pos hw]
      exact ⟨.inr ⟨_, rfl, h2 hw⟩, fun _ => ⟨_, rfl⟩⟩
    · rw [if_neg hw]
      exact ⟨.inl rfl, fun hc => absurd (h1 hc) hw⟩
  rintro v p q r (⟨rfl, hp⟩ | ⟨rfl, hp⟩ | ⟨rfl, hp⟩)
  · simp only [Prod.mk.injEq] at hp
    obtain ⟨rfl, rfl, rfl⟩ := hp
    obtain ⟨w, hw, h1, h2⟩ := angle_aux h hab hca hx hy hz
    refine fin ?_ h1 h2
    rw [← hw]
    simp only [Triangle.angle, hl, ok_bind, if_true]
    simp only [sq_rd, add_rd, sub_rd, mul_rd, div_rd, two_rd]
  · simp only [Prod.mk.injEq] at hp
    obtain ⟨rfl, rfl, rfl⟩ := hp
    obtain ⟨w, hw, h1, h2⟩ := angle_aux h (a := p) (b := r) (c := q) hab.symm hbc.symm
      (by rw [dist_comm]; exact hy) (by rw [dist_comm]; exact hx) (by rw [dist_comm]; exact hz)
    rw [EuclideanGeometry.angle_comm r p q, lawCond_swap p q r] at h1 h2
    refine fin ?_ h1 h2
    rw [← hw]
    have e1 : ("B" = "A") = False := by simp
    simp only [Triangle.angle, hl, ok_bind, e1, if_true, if_false]
    simp only [sq_rd, add_rd, sub_rd, mul_rd, div_rd, two_rd]
  · simp only [Prod.mk.injEq] at hp
    obtain ⟨rfl, rfl, rfl⟩ := hp
    obtain ⟨w, hw, h1, h2⟩ := angle_aux h (a := p) (b := q) (c := r) hca hbc hz hx hy
    refine fin ?_ h1 h2
    rw [← hw]
    have e1 : ("C" = "A") = False := by simp
    have e2 : ("C" = "B") = False := by simp
    simp only [Triangle.angle, hl, ok_bind, e1, e2, if_true, if_false]
    simp only [sq_rd, add_rd, sub_rd, mul_rd, div_rd, two_rd]

/-- The hypotheses of C90 are met by binary64 rounding and the 3-4-5 triangle, whose angles are returned. -/
example : ∃ T, @Triangle.new ℝ (rounded (leftToRight (roundNearest 53))) rankTwo (arr (vec2 0 0)) (arr (vec2 3 0))
      (arr (vec2 0 4)) = .ok T ∧ ∃ θ, @Triangle.angle ℝ (rounded (leftToRight (roundNearest 53))) T "B" = .ok θ := by
  obtain ⟨T, hT⟩ := triangle_345 (leftToRight (roundNearest 53))
  have d1 : dist (vec2 0 0) (vec2 3 0) = 3 := dist_vec2_of (by norm_num) (by norm_num)
  have d2 : dist (vec2 3 0) (vec2 0 4) = 5 := dist_vec2_of (by norm_num) (by norm_num)
  have d3 : dist (vec2 0 4) (vec2 0 0) = 4 := dist_vec2_of (by norm_num) (by norm_num)
  have hd : ∀ {x y : E 2} {r : ℝ}, dist x y = r → 0 < r → x ≠ y := fun hd hr => dist_pos.mp (hd ▸ hr)
  refine ⟨T, hT, ((C90_triangle_angle (roundNearest_std (p := 53) (by norm_num)) (by norm_num) hT (hd d1 (by norm_num))
    (hd d2 (by norm_num)) (hd d3 (by norm_num))) "B" _ _ _ (.inr (.inl ⟨rfl, rfl⟩))).2 ?_⟩
  rw [← cos_law _ _ _ (hd d2 (by norm_num)) (hd d1 (by norm_num)).symm, lawCond, d1, d2, d3]
  norm_num

end SkSpatial
