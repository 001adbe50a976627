import Verif.Props.Rounding24
/-! # C115: triangles, planes through vectors or points, and coordinates along a line under rounding -/

namespace SkSpatial
open StdRounding

variable {u : ℝ} {fl : Arith} {n : ℕ}

/-- `line.project_point` when the direction itself is only known up to `k` relative errors. -/
theorem projectPoint_crp [NeZero n] (h : StdRounding u fl) {k : ℝ} (hk : 0 ≤ k) (p v v' x : E n) (hv : v ≠ 0)
    (hvv : CRP (eps u) k v' v) :
    ∃ q : E n, @Line.projectPoint ℝ (rounded fl) ⟨arr p, arr v'⟩ (arr x) = .ok (arr q) ∧
      ‖q - foot p v x‖ ≤ (Real.exp (eps u) - 1) * ‖p‖ +
        (Real.exp ((2 * n + 6 + 4 * k) * eps u) - 1) * dist x p := by
  have hε := h.eps_nonneg
  obtain ⟨w, hw, hi⟩ := fromPoints_rd fl p x
  have hc : CRP (eps u) 1 w (x - p) := fun i => by rw [hi]; exact h.rp _
  obtain ⟨D, hD⟩ : ∃ D, D = @dotv ℝ (rounded fl) (arr v') (arr w) := ⟨_, rfl⟩
  obtain ⟨V, hV⟩ : ∃ V, V = @dotv ℝ (rounded fl) (arr v') (arr v') := ⟨_, rfl⟩
  have hD' := h.dotv_abs' hk zero_le_one hvv hc
  have hV' := h.dotv_self_rp hk hvv
  rw [← hD] at hD'
  rw [← hV] at hV'
  obtain ⟨s, hs, hsi⟩ := smul_rd (fl := fl) (fl (D / V)) v'
  obtain ⟨q, hq, hqi⟩ := vadd_rd (fl := fl) p s
  refine ⟨q, ?_, ?_⟩
  · simp only [Line.projectPoint, hw, ok_bind, Vec.projectVector, dot_rd, ← hD, ← hV, pure_ok, div_rd, hs, hq]
  · have hv0 : 0 < ‖v‖ := norm_pos_iff.mpr hv
    obtain ⟨W, hW⟩ : ∃ W, W = dist x p := ⟨_, rfl⟩
    have hW0 : 0 ≤ W := by rw [hW]; exact dist_nonneg
    rw [← dist_eq_norm, ← hW] at hD'
    obtain ⟨A, hA⟩ : ∃ A, A = Real.exp ((k + 1 + 1 + n) * eps u) := ⟨_, rfl⟩
    obtain ⟨B, hB⟩ : ∃ B, B = Real.exp ((n + 3 + 3 * k) * eps u) := ⟨_, rfl⟩
    obtain ⟨C, hC⟩ : ∃ C, C = Real.exp (eps u) := ⟨_, rfl⟩
    have hA1 : 1 ≤ A := by rw [hA]; exact one_le_exp_eps h (by positivity)
    have hB1 : 1 ≤ B := by rw [hB]; exact one_le_exp_eps h (by positivity)
    have hC1 : 1 ≤ C := by rw [hC]; exact Real.one_le_exp hε
    rw [← hA] at hD'
    obtain ⟨s₀, hs₀⟩ : ∃ s₀ : E n, s₀ = (D / ‖v‖ ^ 2) • v := ⟨_, rfl⟩
    have hcs : CRP (eps u) (n + 3 + 3 * k) s s₀ := by
      intro i
      rw [hsi, hs₀]
      have := h.step ((h.step ((RP.refl (eps u) D).div hV')).mul (hvv i))
      rw [show (0 : ℝ) + (2 * k + 1 + n) + 1 + k + 1 = n + 3 + 3 * k by ring] at this
      simpa using this
    have e1 := CRP.norm_sub_le hcs (by positivity)
    rw [← hB] at e1
    obtain ⟨I, hI⟩ : ∃ I : ℝ, I = inner ℝ v (x - p) := ⟨_, rfl⟩
    rw [← hI] at hD'
    have hIW : |I| ≤ ‖v‖ * W := by
      rw [hI, hW, dist_eq_norm]; exact abs_real_inner_le_norm _ _
    have hDb : |D| ≤ A * (‖v‖ * W) := by
      calc |D| = |(D - I) + I| := by ring_nf
        _ ≤ _ := abs_add_le _ _
        _ ≤ _ := by linarith
    have nsmul : ∀ c : ℝ, ∀ b : ℝ, |c| ≤ b * (‖v‖ * W) → ‖(c / ‖v‖ ^ 2) • v‖ ≤ b * W := by
      intro c b hcb
      rw [norm_smul, Real.norm_eq_abs, abs_div, abs_of_pos (by positivity : (0:ℝ) < ‖v‖ ^ 2), div_mul_eq_mul_div,
        div_le_iff₀ (by positivity)]
      calc |c| * ‖v‖ ≤ b * (‖v‖ * W) * ‖v‖ := by gcongr
        _ = b * W * ‖v‖ ^ 2 := by ring
    have n0 : ‖s₀‖ ≤ A * W := by rw [hs₀]; exact nsmul _ _ hDb
    have n1 : ‖s₀ - (I / ‖v‖ ^ 2) • v‖ ≤ (A - 1) * W := by
      rw [hs₀, ← sub_smul, ← sub_div]; exact nsmul _ _ hD'
    have n2 : ‖s - (I / ‖v‖ ^ 2) • v‖ ≤ (A * B - 1) * W := by
      calc ‖s - (I / ‖v‖ ^ 2) • v‖ = ‖(s - s₀) + (s₀ - (I / ‖v‖ ^ 2) • v)‖ := by congr 1; abel
        _ ≤ ‖s - s₀‖ + ‖s₀ - (I / ‖v‖ ^ 2) • v‖ := norm_add_le _ _
        _ ≤ (B - 1) * (A * W) + (A - 1) * W :=
            add_le_add (e1.trans (mul_le_mul_of_nonneg_left n0 (by linarith))) n1
        _ = _ := by ring
    have n3 : ‖(I / ‖v‖ ^ 2) • v‖ ≤ 1 * W := nsmul _ _ (by rw [one_mul]; exact hIW)
    have n4 : ‖s‖ ≤ A * B * W := by
      calc ‖s‖ = ‖(s - (I / ‖v‖ ^ 2) • v) + (I / ‖v‖ ^ 2) • v‖ := by congr 1; abel
        _ ≤ _ := norm_add_le _ _
        _ ≤ _ := by linarith
    have hcq : CRP (eps u) 1 q (p + s) := fun i => by rw [hqi]; exact h.rp _
    have n5 := CRP.norm_sub_le hcq (by linarith)
    rw [one_mul, ← hC] at n5
    have n6 : ‖p + s‖ ≤ ‖p‖ + A * B * W := (norm_add_le _ _).trans (by linarith)
    have hABC : Real.exp ((2 * n + 6 + 4 * k) * eps u) = A * B * C := by
      rw [hA, hB, hC, ← Real.exp_add, ← Real.exp_add]; congr 1; ring
    rw [hABC, foot, real_inner_comm, ← hI, ← hW, ← hC]
    calc ‖q - (p + (I / ‖v‖ ^ 2) • v)‖ = ‖(q - (p + s)) + (s - (I / ‖v‖ ^ 2) • v)‖ := by congr 1; abel
      _ ≤ ‖q - (p + s)‖ + ‖s - (I / ‖v‖ ^ 2) • v‖ := norm_add_le _ _
      _ ≤ (C - 1) * (‖p‖ + A * B * W) + (A * B - 1) * W :=
          add_le_add (n5.trans (mul_le_mul_of_nonneg_left n6 (by linarith))) n2
      _ = _ := by ring

/-! ### Triangles -/

/-- C115: `triangle.normal()` under rounding is within `√2 ((1-u)^(-4) - 1) |ab| |ac|` of `(b - a) × (c - a)`. -/
theorem C115_normal [NeZero n] (hn : n ≤ 3) (h : StdRounding u fl) {ext : NumpyExt ℝ} {a b c : E n} {T : Triangle ℝ}
    (hT : @Triangle.new ℝ (rounded fl) ext (arr a) (arr b) (arr c) = .ok T) :
    ∃ N : E 3, @Triangle.normal ℝ (rounded fl) T = .ok (arr N) ∧
      dist N (crossE (pad3 (b - a)) (pad3 (c - a))) ≤ √2 * (((1 - u) ^ 4)⁻¹ - 1) * (dist a b * dist a c) := by
  obtain rfl := triangle_new_rd hT
  obtain ⟨z, hz, cz⟩ := from_crp h a b
  obtain ⟨w, hw, cw⟩ := from_crp h a c
  obtain ⟨x, hx, ex⟩ := cross_rd hn h (by norm_num) cz cw
  refine ⟨x, by simp only [Triangle.normal, hz, hw, ok_bind, hx], ?_⟩
  rw [exp_nat h (m := 4) (by norm_num), ← dist_eq_norm b, ← dist_eq_norm c, dist_comm b, dist_comm c] at ex
  rw [dist_eq_norm]
  exact ex

/-- C115: `triangle.centroid()` under rounding: every coordinate is within `(1-u)^(-4) - 1` times the mean of the absolute values
of the vertices' coordinates. -/
theorem C115_centroid [NeZero n] (h : StdRounding u fl) {ext : NumpyExt ℝ} {a b c : E n} {T : Triangle ℝ}
    (hT : @Triangle.new ℝ (rounded fl) ext (arr a) (arr b) (arr c) = .ok T) :
    ∃ m : E n, @Triangle.centroid ℝ (rounded fl) T = .ok (arr m) ∧
      ∀ j, |m j - (a j + b j + c j) / 3| ≤ (((1 - u) ^ 4)⁻¹ - 1) * ((|a j| + |b j| + |c j|) / 3) := by
  obtain rfl := triangle_new_rd hT
  obtain ⟨m, hm, he⟩ := C91_centroid h (P := [a, b, c]) (by simp)
  refine ⟨m, ?_, fun j => ?_⟩
  · have hp : @newPoints ℝ (rounded fl) [arr a, arr b, arr c] = .ok (rows [a, b, c]) := newPoints_rd (P := [a, b, c]) (by simp)
    simp only [Triangle.centroid, hp, ok_bind, hm]
  · have := he j
    simp only [List.length_cons, List.length_nil, List.sum_cons, List.sum_nil, List.map_cons, List.map_nil, PiLp.smul_apply,
      PiLp.add_apply, PiLp.zero_apply, smul_eq_mul] at this
    norm_num at this
    rw [show (a j + b j + c j) / 3 = 1 / 3 * (a j + (b j + c j)) by ring,
      show (|a j| + |b j| + |c j|) / 3 = (|a j| + (|b j| + |c j|)) / 3 by ring]
    convert this using 4

theorem altitude_rd [NeZero n] (h : StdRounding u fl) (hu : u ≤ 1 / 2) (a b c : E n) (hbc : b ≠ c)
    (hlong : ((1 - u)⁻¹ - 1) * ‖b‖ + (((1 - u) ^ (2 * n + 10))⁻¹ - 1) * dist a b < dist a (foot b (c - b) a)) :
    ∃ w : E n, (do
        let l ← @Line.fromPoints ℝ (rounded fl) (arr b) (arr c)
        let q ← @Line.projectPoint ℝ (rounded fl) l (arr a)
        @Line.fromPoints ℝ (rounded fl) (arr a) q) = .ok ⟨arr a, arr w⟩ ∧ w ≠ 0 ∧
      ‖w - (foot b (c - b) a - a)‖ ≤
        (((1 - u) ^ 2)⁻¹ - 1) * ‖b‖ + (((1 - u) ^ (2 * n + 11))⁻¹ - 1) * dist a b := by
  classical
  have hε := h.eps_nonneg
  obtain ⟨z, hz, cz⟩ := from_crp h b c
  have hcb : c - b ≠ 0 := sub_ne_zero.mpr hbc.symm
  have hz0 : z ≠ 0 := by
    intro h0
    apply hcb
    ext i
    have := (cz i).eq_zero
    rw [h0] at this
    exact this.mp rfl
  obtain ⟨q, hq, hqe⟩ := projectPoint_crp h zero_le_one b (c - b) z a hcb cz
  obtain ⟨w, hw, cw⟩ := from_crp h a q
  obtain ⟨C, hC⟩ : ∃ C, C = Real.exp (eps u) := ⟨_, rfl⟩
  obtain ⟨X, hX⟩ : ∃ X, X = Real.exp ((2 * n + 6 + 4 * 1) * eps u) := ⟨_, rfl⟩
  have hC1 : 1 ≤ C := by rw [hC]; exact Real.one_le_exp hε
  have hX1 : 1 ≤ X := by rw [hX]; exact one_le_exp_eps h (by positivity)
  have xC : (1 - u)⁻¹ = C := by rw [hC, exp_one_eps h]
  have xX : ((1 - u) ^ (2 * n + 10))⁻¹ = X := by rw [hX, exp_nat h]; push_cast; ring
  have x2 : ((1 - u) ^ 2)⁻¹ = C * C := by rw [← xC, pow_two, mul_inv]
  have x11 : ((1 - u) ^ (2 * n + 11))⁻¹ = X * C := by rw [← xX, ← xC, ← mul_inv, ← pow_succ]
  rw [xC, xX] at hlong
  rw [x2, x11]
  rw [← hC, ← hX] at hqe
  obtain ⟨F, hF⟩ : ∃ F, F = foot b (c - b) a := ⟨_, rfl⟩
  rw [← hF] at hqe hlong ⊢
  have hFa : dist a F ≤ dist a b := by
    have := foot_dist_le b (c - b) a hcb 0
    rwa [zero_smul, add_zero, ← hF] at this
  have hqa : q ≠ a := by
    intro h0
    rw [h0, ← dist_eq_norm] at hqe
    linarith
  have hw0 : w ≠ 0 := by
    intro h0
    apply hqa
    rw [← sub_eq_zero]
    ext i
    have := (cw i).eq_zero
    rw [h0] at this
    exact this.mp rfl
  refine ⟨w, ?_, hw0, ?_⟩
  · have l1 := ((C73_constructors h hu b z).1 hz0).1
    have l2 := ((C73_constructors h hu a w).1 hw0).1
    simp only [Line.fromPoints, hz, ok_bind, l1, hq, hw, l2]
  · have e1 := CRP.norm_sub_le cw (by linarith)
    rw [one_mul, ← hC] at e1
    have e2 : ‖q - a‖ ≤ ‖q - F‖ + dist a b := by
      calc ‖q - a‖ = ‖(q - F) + (F - a)‖ := by congr 1; abel
        _ ≤ ‖q - F‖ + ‖F - a‖ := norm_add_le _ _
        _ ≤ _ := by rw [← dist_eq_norm F, dist_comm]; linarith
    have D0 : 0 ≤ dist a b := dist_nonneg
    have B0 : 0 ≤ ‖b‖ := norm_nonneg b
    calc ‖w - (F - a)‖ = ‖(w - (q - a)) + (q - F)‖ := by congr 1; abel
      _ ≤ ‖w - (q - a)‖ + ‖q - F‖ := norm_add_le _ _
      _ ≤ (C - 1) * (‖q - F‖ + dist a b) + ‖q - F‖ :=
          add_le_add_left (e1.trans (mul_le_mul_of_nonneg_left e2 (by linarith))) _
      _ = C * ‖q - F‖ + (C - 1) * dist a b := by ring
      _ ≤ C * ((C - 1) * ‖b‖ + (X - 1) * dist a b) + (C - 1) * dist a b := by gcongr
      _ ≤ _ := by nlinarith [mul_nonneg (sub_nonneg.mpr hC1) B0]

/-- C115: `triangle.altitude(vertex)` under rounding starts exactly at the vertex, and its direction is the vector from the vertex to
the foot of the altitude, up to `((1-u)^(-2) - 1) ‖b‖ + ((1-u)^(-(2n+11)) - 1) dist a b`, where `b` is the vertex after `a` (in the
order A, B, C, A).  It is returned unless the altitude is shorter than the error of the foot. -/
theorem C115_altitude [NeZero n] (h : StdRounding u fl) (hu : u ≤ 1 / 2) {ext : NumpyExt ℝ} {a b c : E n} {T : Triangle ℝ}
    (hT : @Triangle.new ℝ (rounded fl) ext (arr a) (arr b) (arr c) = .ok T) (hab : a ≠ b) (hbc : b ≠ c) (hca : c ≠ a) :
    (((1 - u)⁻¹ - 1) * ‖b‖ + (((1 - u) ^ (2 * n + 10))⁻¹ - 1) * dist a b < dist a (foot b (c - b) a) →
      ∃ w : E n, @Triangle.altitude ℝ (rounded fl) T "A" = .ok ⟨arr a, arr w⟩ ∧ w ≠ 0 ∧
        ‖w - (foot b (c - b) a - a)‖ ≤ (((1 - u) ^ 2)⁻¹ - 1) * ‖b‖ + (((1 - u) ^ (2 * n + 11))⁻¹ - 1) * dist a b) ∧
    (((1 - u)⁻¹ - 1) * ‖c‖ + (((1 - u) ^ (2 * n + 10))⁻¹ - 1) * dist b c < dist b (foot c (a - c) b) →
      ∃ w : E n, @Triangle.altitude ℝ (rounded fl) T "B" = .ok ⟨arr b, arr w⟩ ∧ w ≠ 0 ∧
        ‖w - (foot c (a - c) b - b)‖ ≤ (((1 - u) ^ 2)⁻¹ - 1) * ‖c‖ + (((1 - u) ^ (2 * n + 11))⁻¹ - 1) * dist b c) ∧
    (((1 - u)⁻¹ - 1) * ‖a‖ + (((1 - u) ^ (2 * n + 10))⁻¹ - 1) * dist c a < dist c (foot a (b - a) c) →
      ∃ w : E n, @Triangle.altitude ℝ (rounded fl) T "C" = .ok ⟨arr c, arr w⟩ ∧ w ≠ 0 ∧
        ‖w - (foot a (b - a) c - c)‖ ≤ (((1 - u) ^ 2)⁻¹ - 1) * ‖a‖ + (((1 - u) ^ (2 * n + 11))⁻¹ - 1) * dist c a) := by
  obtain rfl := triangle_new_rd hT
  refine ⟨fun hl => ?_, fun hl => ?_, fun hl => ?_⟩
  · exact altitude_rd h hu a b c hbc hl
  · exact altitude_rd h hu b c a hca hl
  · exact altitude_rd h hu c a b hab hl

/-! ### Planes -/

/-- The plane through `p` with a normal near `v × w` is near the plane spanned by `v` and `w`. -/
theorem spanned_near {v w N X : E 3} {δ σ : ℝ} (hδ : 0 ≤ δ) (hN : ‖N - crossE v w‖ ≤ δ * (‖v‖ * ‖w‖))
    (hv : v ≠ 0) (hw : w ≠ 0) (hσ : ‖crossE v w‖ = ‖v‖ * ‖w‖ * σ) (h2 : 2 * δ < σ) (hX : inner ℝ X (crossE v w) = (0 : ℝ)) :
    N ≠ 0 ∧ |inner ℝ X N / ‖N‖| ≤ 2 * δ / σ * ‖X‖ := by
  have hvw : 0 < ‖v‖ * ‖w‖ := mul_pos (norm_pos_iff.mpr hv) (norm_pos_iff.mpr hw)
  have hσ0 : 0 < σ := by linarith
  have hl : ‖v‖ * ‖w‖ * (σ / 2) ≤ ‖N‖ := by
    have : ‖crossE v w‖ ≤ ‖N‖ + ‖N - crossE v w‖ := by
      calc ‖crossE v w‖ = ‖N - (N - crossE v w)‖ := by congr 1; abel
        _ ≤ _ := norm_sub_le _ _
    nlinarith
  have hN0 : 0 < ‖N‖ := lt_of_lt_of_le (by positivity) hl
  refine ⟨norm_pos_iff.mp hN0, ?_⟩
  have e : inner ℝ X N = inner ℝ X (N - crossE v w) := by rw [inner_sub_right, hX, sub_zero]
  rw [abs_div, abs_of_pos hN0, div_le_iff₀ hN0, e]
  calc |inner ℝ X (N - crossE v w)| ≤ ‖X‖ * ‖N - crossE v w‖ := abs_real_inner_le_norm _ _
    _ ≤ ‖X‖ * (δ * (‖v‖ * ‖w‖)) := by gcongr
    _ = 2 * δ / σ * ‖X‖ * (‖v‖ * ‖w‖ * (σ / 2)) := by field_simp
    _ ≤ _ := by gcongr

theorem sqrt2_exp {k : ℕ} (h : StdRounding u fl) (hk : 1 ≤ k) (hu : 20 * k * u ≤ 1) :
    √2 * (((1 - u) ^ k)⁻¹ - 1) ≤ 3 / 2 * k * u := by
  have hu0 := h.nonneg
  have h1 := h.lt_one
  have hk' : (1 : ℝ) ≤ k := by exact_mod_cast hk
  have hB : 1 - k * u ≤ (1 - u) ^ k := by
    have := one_add_mul_le_pow (show (-2 : ℝ) ≤ -u by linarith) k
    linarith [show (1 + -u) ^ k = (1 - u) ^ k by ring]
  have hp : 0 < 1 - k * u := by nlinarith
  have hi : ((1 - u) ^ k)⁻¹ ≤ (1 - k * u)⁻¹ := inv_anti₀ hp hB
  have hi2 : (1 - k * u)⁻¹ - 1 ≤ 20 / 19 * (k * u) := by
    rw [sub_le_iff_le_add, inv_le_iff_one_le_mul₀ hp]
    nlinarith [mul_nonneg (by linarith : (0:ℝ) ≤ k) hu0]
  have hs : √2 ≤ 1.42 := by
    rw [Real.sqrt_le_left (by norm_num)]; norm_num
  have h0 : 0 ≤ ((1 - u) ^ k)⁻¹ - 1 := by
    have : (1 - u) ^ k ≤ 1 := pow_le_one₀ (by linarith) (by linarith)
    have := one_le_inv_iff₀.mpr ⟨pow_pos (by linarith) k, this⟩
    linarith
  calc √2 * (((1 - u) ^ k)⁻¹ - 1) ≤ 1.42 * (20 / 19 * (k * u)) := mul_le_mul hs (by linarith) h0 (by norm_num)
    _ ≤ _ := by nlinarith [mul_nonneg (by linarith : (0:ℝ) ≤ k) hu0]

theorem span_perp (s t : ℝ) (v w : E n) :
    inner ℝ (pad3 (s • v + t • w)) (crossE (pad3 v) (pad3 w)) = (0 : ℝ) := by
  rw [pad3_add, pad3_smul, pad3_smul, inner_add_left, real_inner_smul_left, real_inner_smul_left, real_inner_comm,
    crossE_inner_left, real_inner_comm, crossE_inner_right]
  ring

theorem pad3_ne {v : E n} (hn : n ≤ 3) (hv : v ≠ 0) : pad3 v ≠ 0 := by
  rw [← norm_ne_zero_iff, norm_pad3 hn, norm_ne_zero_iff]; exact hv

theorem plane_new_pad (h : StdRounding u fl) (hu : u ≤ 1 / 2) {p N : E 3} (hN : N ≠ 0) :
    @Plane.new ℝ (rounded fl) (arr p) (arr N) = .ok ⟨arr p, arr N⟩ := ((C73_constructors h hu p N).1 hN).2

/-- C115: `Plane.from_vectors(p, v, w)` under rounding.  For vectors that are not nearly parallel it returns; whenever it returns, the
plane goes exactly through `p`, its normal is within `3u |v| |w|` of `v × w`, and every point `p + s v + t w` of the spanned plane
is within `6u / sin(v, w)` times its distance from `p` of the returned plane. -/
theorem C115_from_vectors [NeZero n] (hn : n ≤ 3) (h : StdRounding u fl) (hu : (2 * n + 6) * u ≤ 4 / 10000000000) (p v w : E n) :
    (v ≠ 0 → w ≠ 0 → |cosE v w| < 1 - 15 / 10000000000 →
      ∃ P, @Plane.fromVectors ℝ (rounded fl) (@Tol.default ℝ (rounded fl)) (arr p) (arr v) (arr w) = .ok P) ∧
    ∀ P, @Plane.fromVectors ℝ (rounded fl) (@Tol.default ℝ (rounded fl)) (arr p) (arr v) (arr w) = .ok P →
      ∃ N : E 3, P = ⟨arr (pad3 p), arr N⟩ ∧ ‖N - crossE (pad3 v) (pad3 w)‖ ≤ 3 * u * (‖v‖ * ‖w‖) ∧
        ∀ s t : ℝ, |signedDist (pad3 p) N (pad3 (p + s • v + t • w))| ≤ 6 * u / √(1 - cosE v w ^ 2) * ‖s • v + t • w‖ := by
  have hu0 := h.nonneg
  have hn1 : (1 : ℝ) ≤ n := by exact_mod_cast Nat.one_le_iff_ne_zero.mpr (NeZero.ne n)
  have hu1 : u ≤ 1 / 10000000000 := by nlinarith
  obtain ⟨b, hb, b1, b2⟩ := C77_is_parallel h hu v w
  obtain ⟨N, hN, eN⟩ := cross_rd hn h le_rfl (CRP.refl (eps u) v) (CRP.refl (eps u) w)
  rw [exp_nat h (m := 2) (by norm_num)] at eN
  have h3 := sqrt2_exp h (k := 2) (by norm_num) (by push_cast; linarith)
  have eN' : ‖N - crossE (pad3 v) (pad3 w)‖ ≤ 3 * u * (‖v‖ * ‖w‖) :=
    eN.trans (mul_le_mul_of_nonneg_right (by push_cast at h3; linarith) (by positivity))
  have key : b = false → N ≠ 0 ∧
      ∀ s t : ℝ, |signedDist (pad3 p) N (pad3 (p + s • v + t • w))| ≤ 6 * u / √(1 - cosE v w ^ 2) * ‖s • v + t • w‖ := by
    intro hbf
    have hnot : ¬ (v = 0 ∨ w = 0 ∨ 1 - 5 / 10000000000 ≤ |cosE v w|) := fun hc => by
      rw [b1 hc] at hbf; cases hbf
    push Not at hnot
    obtain ⟨hv, hw, hc⟩ := hnot
    have hsin : (1 : ℝ) / 100000 < √(1 - cosE v w ^ 2) := by
      rw [Real.lt_sqrt (by norm_num), ← sq_abs (cosE v w)]
      nlinarith [abs_nonneg (cosE v w)]
    have hX := fun s t => spanned_near (v := pad3 v) (w := pad3 w) (N := N) (X := pad3 (s • v + t • w)) (δ := 3 * u)
      (σ := √(1 - cosE v w ^ 2)) (by positivity) (by rwa [norm_pad3 hn, norm_pad3 hn]) (pad3_ne hn hv) (pad3_ne hn hw)
      (by rw [norm_pad3 hn, norm_pad3 hn]; exact sine_cross hn hv hw) (by linarith) (span_perp s t v w)
    refine ⟨(hX 0 0).1, fun s t => ?_⟩
    have := (hX s t).2
    rw [norm_pad3 hn] at this
    rw [signedDist, show p + s • v + t • w = p + (s • v + t • w) by abel, pad3_add p, add_sub_cancel_left]
    convert this using 2
    ring
  have hdef : @Plane.fromVectors ℝ (rounded fl) (@Tol.default ℝ (rounded fl)) (arr p) (arr v) (arr w) =
      if b then .error (.valueError "The vectors must not be parallel.")
      else @Plane.new ℝ (rounded fl) (arr (pad3 p)) (arr N) := by
    simp only [Plane.fromVectors, new1D_rd, ok_bind, hb, hN, setDimension3_rd hn]
  rw [hdef]
  cases b with
  | true =>
    refine ⟨fun hv hw hc => ?_, fun P hP => by cases hP⟩
    rcases b2 rfl with h0 | h0 | h0
    · exact absurd h0 hv
    · exact absurd h0 hw
    · linarith
  | false =>
    obtain ⟨k1, k2⟩ := key rfl
    have hP := plane_new_pad h (by linarith) (p := pad3 p) k1
    simp only [Bool.false_eq_true, if_false]
    refine ⟨fun _ _ _ => ⟨_, hP⟩, fun P hP' => ?_⟩
    rw [hP] at hP'
    cases hP'
    exact ⟨N, rfl, eN', k2⟩

/-- C115: whenever `Plane.from_points(a, b, c)` returns under rounding, the plane goes exactly through `a` and its normal is within
`6u |ab| |ac|` of `(b - a) × (c - a)`; if the sine of the angle at `a` is more than `12u`, then `b` and `c` (and all points
`a + s (b - a) + t (c - a)`) are within `12u / sin` times their distance from `a` of the plane. -/
theorem C115_from_points [NeZero n] (hn : n ≤ 3) (h : StdRounding u fl) (hu : u ≤ 1 / 100) {ext : NumpyExt ℝ} (t : Option ℝ)
    {a b c : E n} {P : Plane ℝ} (hP : @Plane.fromPoints ℝ (rounded fl) ext t (arr a) (arr b) (arr c) = .ok P) :
    ∃ N : E 3, P = ⟨arr (pad3 a), arr N⟩ ∧
      ‖N - crossE (pad3 (b - a)) (pad3 (c - a))‖ ≤ 6 * u * (dist a b * dist a c) ∧
      (12 * u < √(1 - cosE (b - a) (c - a) ^ 2) → a ≠ b → a ≠ c →
        (∀ s r : ℝ, |signedDist (pad3 a) N (pad3 (a + s • (b - a) + r • (c - a)))| ≤
          12 * u / √(1 - cosE (b - a) (c - a) ^ 2) * ‖s • (b - a) + r • (c - a)‖) ∧
        |signedDist (pad3 a) N (pad3 b)| ≤ 12 * u / √(1 - cosE (b - a) (c - a) ^ 2) * dist a b ∧
        |signedDist (pad3 a) N (pad3 c)| ≤ 12 * u / √(1 - cosE (b - a) (c - a) ^ 2) * dist a c) := by
  have hu0 := h.nonneg
  obtain ⟨z, hz, cz⟩ := from_crp h a b
  obtain ⟨w, hw, cw⟩ := from_crp h a c
  obtain ⟨N, hN, eN⟩ := cross_rd hn h zero_le_one cz cw
  rw [exp_nat h (m := 4) (by norm_num)] at eN
  have h3 := sqrt2_exp h (k := 4) (by norm_num) (by push_cast; linarith)
  have eN' : ‖N - crossE (pad3 (b - a)) (pad3 (c - a))‖ ≤ 6 * u * (‖b - a‖ * ‖c - a‖) :=
    eN.trans (mul_le_mul_of_nonneg_right (by push_cast at h3; linarith) (by positivity))
  simp only [Plane.fromPoints, bind_ok_iff] at hP
  obtain ⟨ps, -, col, -, hP⟩ := hP
  split at hP
  · cases hP
  simp only [hz, hw, ok_bind, Plane.fromVectors, new1D_rd, bind_ok_iff] at hP
  obtain ⟨par, -, hP⟩ := hP
  split at hP
  · cases hP
  simp only [hN, ok_bind, setDimension3_rd hn, Plane.new, newLinePlane, new1D_rd, C73_is_zero h (by linarith : u ≤ 1 / 2), length_arr,
    ne_eq, not_true, if_false] at hP
  have hP' : P = ⟨arr (pad3 a), arr N⟩ := by
    split at hP
    · cases hP
    · simpa using hP.symm
  refine ⟨N, hP', ?_, fun hsin hab hac => ?_⟩
  · rwa [dist_comm a b, dist_comm a c, dist_eq_norm, dist_eq_norm]
  · have hv : b - a ≠ 0 := sub_ne_zero.mpr hab.symm
    have hw' : c - a ≠ 0 := sub_ne_zero.mpr hac.symm
    have key : ∀ s r : ℝ, |signedDist (pad3 a) N (pad3 (a + s • (b - a) + r • (c - a)))| ≤
          12 * u / √(1 - cosE (b - a) (c - a) ^ 2) * ‖s • (b - a) + r • (c - a)‖ := fun s r => by
      have := (spanned_near (v := pad3 (b - a)) (w := pad3 (c - a)) (N := N) (X := pad3 (s • (b - a) + r • (c - a))) (δ := 6 * u)
        (σ := √(1 - cosE (b - a) (c - a) ^ 2)) (by positivity) (by rwa [norm_pad3 hn, norm_pad3 hn]) (pad3_ne hn hv) (pad3_ne hn hw')
        (by rw [norm_pad3 hn, norm_pad3 hn]; exact sine_cross hn hv hw') (by linarith) (span_perp s r _ _)).2
      rw [norm_pad3 hn] at this
      rw [signedDist, show a + s • (b - a) + r • (c - a) = a + (s • (b - a) + r • (c - a)) by abel, pad3_add a, add_sub_cancel_left]
      convert this using 2
      ring
    refine ⟨key, ?_, ?_⟩
    · have := key 1 0
      rw [one_smul, zero_smul, add_zero, add_zero, add_sub_cancel] at this
      rwa [dist_comm, dist_eq_norm]
    · have := key 0 1
      rw [one_smul, zero_smul, add_zero, zero_add, add_sub_cancel] at this
      rwa [dist_comm, dist_eq_norm]

/-- C115: `plane.cartesian()` under rounding: the first three coefficients are exactly the normal (padded with zeros), the last is
`-⟨normal, point⟩` up to `((1-u)^(-(n+1)) - 1) |normal| |point|`. -/
theorem C115_cartesian [NeZero n] (hn : n ≤ 3) (h : StdRounding u fl) (p m : E n) :
    ∃ d, @Plane.cartesian ℝ (rounded fl) ⟨arr p, arr m⟩ = .ok (pad3 m 0, pad3 m 1, pad3 m 2, d) ∧
      |d + inner ℝ m p| ≤ (((1 - u) ^ (n + 1))⁻¹ - 1) * (‖m‖ * ‖p‖) := by
  have e := h.dotv_abs' le_rfl le_rfl (CRP.refl (eps u) m) (CRP.refl (eps u) p)
  rw [exp_nat h (m := n + 1) (by push_cast; ring)] at e
  refine ⟨-(@dotv ℝ (rounded fl) (arr m) (arr p)), ?_, ?_⟩
  · have : ¬ n > 3 := by omega
    simp only [Plane.cartesian, Plane.dimension, length_arr, this, if_false, setDimension3_rd hn, ok_bind, dot_rd, arr3, pure_ok, neg_rd]
  · rw [abs_sub_comm] at e
    rwa [neg_add_eq_sub]

/-! ### Coordinates along a line -/

theorem transform_of_signed {K : Type} [PyNum K] {p v : List K} {ps : List (List K)} {D : List K}
    (h : Plane.distancePointsSigned ⟨p, v⟩ ps = .ok D) : Line.transformPoints ⟨p, v⟩ ps = .ok D := by
  simp only [Plane.distancePointsSigned, bind_ok_iff] at h
  obtain ⟨x, hx, vs, hvs, e, he, hd⟩ := h
  have h1 : ∀ (l : List (List K)) (D : List K), l.mapM (fun v => dot v e) = .ok D →
      l.mapM (fun v => [e].mapM fun b => dot v b) = .ok (D.map fun d => [d]) := by
    intro l
    induction l with
    | nil => intro D hD; cases hD; rfl
    | cons a l ih =>
      intro D hD
      simp only [List.mapM_cons, bind_ok_iff, pure_ok, Except.ok.injEq] at hD
      obtain ⟨d, hd, ds, hds, rfl⟩ := hD
      have := ih ds hds
      simp only [List.mapM_cons, List.mapM_nil, pure_ok, ok_bind] at this ⊢
      simp only [hd, this, ok_bind, List.map_cons]
  simp only [Line.transformPoints, transformCoordinates, he, ok_bind, hx, hvs, h1 vs D hd, pure_ok]
  simp only [checkRows, List.all_nil, if_true, ok_bind, Except.ok.injEq]
  clear hd h1
  induction D with
  | nil => rfl
  | cons d D ih => rw [List.map_cons, List.flatten_cons, ih]; rfl

/-- C115: `line.transform_points(points)` under rounding: each coordinate along the line is within
`((1-u)^(-(3n+9)/2) - 1) dist x p` of the exact one. -/
theorem C115_transform_points [NeZero n] (h : StdRounding u fl) (p v : E n) (hv : v ≠ 0) {P : List (E n)} (hP : P ≠ []) :
    ∃ D : List ℝ, @Line.transformPoints ℝ (rounded fl) ⟨arr p, arr v⟩ (rows P) = .ok D ∧
      List.Forall₂ (fun x s => |s - inner ℝ (x - p) v / ‖v‖| ≤
        (((1 - u) ^ ((3 * n + 9) / 2 : ℝ))⁻¹ - 1) * dist x p) P D := by
  obtain ⟨D, h1, -, h2⟩ := C113_plane_distance_points h p v hv hP
  exact ⟨D, @transform_of_signed ℝ (rounded fl) _ _ _ _ h1, h2⟩

/-! ### The theorems are about something -/

/-- C115: the altitude from the right angle of the 3-4-5 triangle in binary64. -/
example : ∃ T, @Triangle.new ℝ (rounded (leftToRight (roundNearest 53))) rankTwo (arr (vec2 0 0)) (arr (vec2 3 0))
      (arr (vec2 0 4)) = .ok T ∧
    (∃ w : E 2, @Triangle.altitude ℝ (rounded (leftToRight (roundNearest 53))) T "A" = .ok ⟨arr (vec2 0 0), arr w⟩) ∧
    ∃ N : E 3, @Triangle.normal ℝ (rounded (leftToRight (roundNearest 53))) T = .ok (arr N) := by
  obtain ⟨T, hT⟩ := triangle_345 (leftToRight (roundNearest 53))
  have d1 : dist (vec2 0 0) (vec2 3 0) = 3 := dist_vec2_of (by norm_num) (by norm_num)
  have d2 : dist (vec2 3 0) (vec2 0 4) = 5 := dist_vec2_of (by norm_num) (by norm_num)
  have d3 : dist (vec2 0 4) (vec2 0 0) = 4 := dist_vec2_of (by norm_num) (by norm_num)
  have hd : ∀ {x y : E 2} {r : ℝ}, dist x y = r → 0 < r → x ≠ y := fun hd hr => dist_pos.mp (hd ▸ hr)
  have hf : foot (vec2 3 0) (vec2 0 4 - vec2 3 0) (vec2 0 0) = vec2 (48 / 25) (36 / 25) := by
    ext i
    fin_cases i <;> simp [foot, vec2, inner2, norm_sq2] <;> norm_num
  have h00 : vec2 0 0 = 0 := by ext i; fin_cases i <;> simp [vec2]
  obtain ⟨N, hN, -⟩ := C115_normal (by norm_num) std53 hT
  obtain ⟨w, hw, -⟩ := (C115_altitude std53 (by norm_num) hT (hd d1 (by norm_num)) (hd d2 (by norm_num)) (hd d3 (by norm_num))).1 (by
    rw [hf, d1, dist_vec2_of (r := 12 / 5) (by norm_num) (by norm_num), show ‖vec2 3 0‖ = 3 by
      rw [← sub_zero (vec2 3 0), ← h00, ← dist_eq_norm, dist_comm, d1]]
    norm_num)
  exact ⟨T, hT, ⟨w, hw⟩, N, hN⟩

/-- C115: `Plane.from_vectors` of two orthogonal vectors in binary64. -/
example : ∃ P, @Plane.fromVectors ℝ (rounded (leftToRight (roundNearest 53))) (@Tol.default ℝ (rounded (leftToRight (roundNearest 53))))
    (arr (vec3 1 2 3)) (arr (vec3 1 0 0)) (arr (vec3 0 1 0)) = .ok P := by
  have h1 : vec3 1 0 0 ≠ 0 := fun h => by
    have := congrArg (fun x : E 3 => x 0) h
    simp [vec3] at this
  have h2 : vec3 0 1 0 ≠ 0 := fun h => by
    have := congrArg (fun x : E 3 => x 1) h
    simp [vec3] at this
  refine (C115_from_vectors (by norm_num) std53 (by norm_num) (vec3 1 2 3) (vec3 1 0 0) (vec3 0 1 0)).1 h1 h2 ?_
  rw [cosE, inner3]
  simp [vec3]
  norm_num

end SkSpatial
