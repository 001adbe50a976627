import Verif.Props.AreaSigned
import Verif.Props.Rounding8
/-! # C91: cross products, areas and volumes under rounding -/

namespace SkSpatial
open StdRounding

variable {u : ℝ} {fl : Arith} {n : ℕ}

/-- A rounded difference of two approximated numbers. -/
theorem diff_error_signed (h : StdRounding u fl) {a b x y k : ℝ} (hk : 0 ≤ k)
    (ha : RP (eps u) k a x) (hb : RP (eps u) k b y) :
    |fl (a - b) - (x - y)| ≤ (Real.exp ((k + 1) * eps u) - 1) * (|x| + |y|) := by
  have hε := h.eps_nonneg
  have e1 := ha.abs_sub_le
  have e2 := hb.abs_sub_le
  have e3 := (h.rp (a - b)).abs_sub_le
  obtain ⟨A, hA⟩ : ∃ A, A = Real.exp (k * eps u) := ⟨_, rfl⟩
  obtain ⟨B, hB⟩ : ∃ B, B = Real.exp (1 * eps u) := ⟨_, rfl⟩
  have hAB : Real.exp ((k + 1) * eps u) = A * B := by
    rw [hA, hB, ← Real.exp_add]; congr 1; ring
  have hB1 : 1 ≤ B := by rw [hB]; exact Real.one_le_exp (by positivity)
  have hA1 : 1 ≤ A := by rw [hA]; exact Real.one_le_exp (by positivity)
  rw [← hA] at e1 e2
  rw [← hB] at e3
  rw [hAB]
  have e5 : |(a - x) + (y - b)| ≤ (A - 1) * (|x| + |y|) := by
    refine (abs_add_le _ _).trans ?_
    rw [abs_sub_comm y b]; linarith
  have e4 : |a - b| ≤ A * (|x| + |y|) := by
    calc |a - b| = |((a - x) + (y - b)) + (x - y)| := by ring_nf
      _ ≤ |(a - x) + (y - b)| + |x - y| := abs_add_le _ _
      _ ≤ (A - 1) * (|x| + |y|) + (|x| + |y|) := add_le_add e5 (abs_sub _ _)
      _ = _ := by ring
  calc |fl (a - b) - (x - y)| = |(fl (a - b) - (a - b)) + ((a - x) + (y - b))| := by ring_nf
    _ ≤ |fl (a - b) - (a - b)| + |(a - x) + (y - b)| := abs_add_le _ _
    _ ≤ (B - 1) * (A * (|x| + |y|)) + (A - 1) * (|x| + |y|) :=
        add_le_add (e3.trans (mul_le_mul_of_nonneg_left e4 (by linarith))) e5
    _ = _ := by ring

theorem setDimension3_rd [NeZero n] (hn : n ≤ 3) (x : E n) :
    @setDimension ℝ (rounded fl) 3 (arr x) = .ok (arr (pad3 x)) := by
  have := setDimension3_arr x hn
  simp only [setDimension, zero_real] at this
  simp only [setDimension, zero_rd]
  split_ifs at this ⊢ with h1
  rw [← this]
  unfold new1D
  rfl

theorem pad3_crp {k : ℝ} (hk : 0 ≤ k * eps u) {z d : E n} (hz : CRP (eps u) k z d) :
    CRP (eps u) k (pad3 z) (pad3 d) := by
  intro i
  simp only [padTo]
  split
  · exact hz _
  · exact ⟨0, by simpa using hk, by simp⟩

/-- The rounded cross product of perturbed vectors. -/
theorem cross3_rd (h : StdRounding u fl) {k : ℝ} (hk : 0 ≤ k) {z d w e : E 3} (hz : CRP (eps u) k z d)
    (hw : CRP (eps u) k w e) :
    ∃ c : E 3, @cross3 ℝ (rounded fl) (arr z) (arr w) = .ok (arr c) ∧
      ‖c - crossE d e‖ ≤ Real.sqrt 2 * (Real.exp ((2 * k + 2) * eps u) - 1) * (‖d‖ * ‖e‖) := by
  refine ⟨vec3 (fl (fl (z 1 * w 2) - fl (z 2 * w 1))) (fl (fl (z 2 * w 0) - fl (z 0 * w 2)))
    (fl (fl (z 0 * w 1) - fl (z 1 * w 0))), ?_, ?_⟩
  · simp [arr3, cross3, vec3, mul_rd, sub_rd]
  have hε := h.eps_nonneg
  have pr : ∀ i j, RP (eps u) (2 * k + 1) (fl (z i * w j)) (d i * e j) := by
    intro i j
    have := h.step ((hz i).mul (hw j))
    rwa [show k + k + 1 = 2 * k + 1 by ring] at this
  have er : ∀ i j, |fl (fl (z i * w j) - fl (z j * w i)) - (d i * e j - d j * e i)| ≤
      (Real.exp ((2 * k + 2) * eps u) - 1) * (|d i * e j| + |d j * e i|) := by
    intro i j
    have := diff_error_signed h (by positivity) (pr i j) (pr j i)
    rwa [show 2 * k + 1 + 1 = 2 * k + 2 by ring] at this
  obtain ⟨A, hA⟩ : ∃ A, A = Real.exp ((2 * k + 2) * eps u) - 1 := ⟨_, rfl⟩
  have hA0 : 0 ≤ A := by rw [hA]; linarith [Real.one_le_exp (show 0 ≤ (2 * k + 2) * eps u by positivity)]
  rw [← hA] at er ⊢
  apply le_of_sq_le_sq _ (by positivity)
  rw [norm_sq3, mul_pow, mul_pow, mul_pow, Real.sq_sqrt (by norm_num), norm_sq3, norm_sq3]
  have key : ∀ {t a b : ℝ}, |t| ≤ A * (|a| + |b|) → t ^ 2 ≤ A ^ 2 * (2 * (a ^ 2 + b ^ 2)) := by
    intro t a b ht
    have h1 : t ^ 2 ≤ (A * (|a| + |b|)) ^ 2 := by
      rw [← sq_abs]; exact pow_le_pow_left₀ (abs_nonneg _) ht 2
    have h2 : (|a| + |b|) ^ 2 ≤ 2 * (a ^ 2 + b ^ 2) := by
      rw [← sq_abs a, ← sq_abs b]; nlinarith [sq_nonneg (|a| - |b|)]
    rw [mul_pow] at h1
    exact h1.trans (mul_le_mul_of_nonneg_left h2 (by positivity))
  have k0 := key (er 1 2)
  have k1 := key (er 2 0)
  have k2 := key (er 0 1)
  simp only [PiLp.sub_apply, crossE, vec3]
  have e0 : ∀ a b c : ℝ, (![a, b, c] : Fin 3 → ℝ) 0 = a := fun _ _ _ => rfl
  have e1 : ∀ a b c : ℝ, (![a, b, c] : Fin 3 → ℝ) 1 = b := fun _ _ _ => rfl
  have e2 : ∀ a b c : ℝ, (![a, b, c] : Fin 3 → ℝ) 2 = c := fun _ _ _ => rfl
  simp only [e0, e1, e2]
  refine (add_le_add (add_le_add k0 k1) k2).trans ?_
  have : 0 ≤ A ^ 2 * (2 * ((d 0 * e 0) ^ 2 + (d 1 * e 1) ^ 2 + (d 2 * e 2) ^ 2)) := by positivity
  nlinarith

theorem cross_rd [NeZero n] (hn : n ≤ 3) (h : StdRounding u fl) {k : ℝ} (hk : 0 ≤ k) {z d w e : E n}
    (hz : CRP (eps u) k z d) (hw : CRP (eps u) k w e) :
    ∃ c : E 3, @Vec.cross ℝ (rounded fl) (arr z) (arr w) = .ok (arr c) ∧
      ‖c - crossE (pad3 d) (pad3 e)‖ ≤ Real.sqrt 2 * (Real.exp ((2 * k + 2) * eps u) - 1) * (‖d‖ * ‖e‖) := by
  have hε := h.eps_nonneg
  obtain ⟨c, hc, he⟩ := cross3_rd h hk (pad3_crp (by positivity) hz) (pad3_crp (by positivity) hw)
  rw [norm_pad3 hn, norm_pad3 hn] at he
  refine ⟨c, ?_, he⟩
  simp only [Vec.cross, setDimension3_rd hn, new1D_rd, ok_bind, hc]

theorem norm_crossE_le (x y : E 3) : ‖crossE x y‖ ≤ ‖x‖ * ‖y‖ := by
  apply le_of_sq_le_sq _ (by positivity)
  rw [crossE_norm_sq, mul_pow]
  nlinarith [sq_nonneg (inner ℝ x y : ℝ)]


theorem chain_error {A B s P X Y S t : ℝ} (hA : 1 ≤ A) (hB : 1 ≤ B) (hs : 1 ≤ s) (ht : 0 ≤ t)
    (h1 : |X - Y| ≤ s * (A - 1) * P) (h2 : |Y| ≤ P) (h3 : |S - t * X| ≤ (B - 1) * (t * |X|)) :
    |S - t * Y| ≤ s * (A * B - 1) * (t * P) := by
  have hP : 0 ≤ P := (abs_nonneg Y).trans h2
  have h4 : |X| ≤ s * A * P := by
    calc |X| = |(X - Y) + Y| := by ring_nf
      _ ≤ |X - Y| + |Y| := abs_add_le _ _
      _ ≤ s * (A - 1) * P + P := add_le_add h1 h2
      _ ≤ s * (A - 1) * P + s * P := by nlinarith
      _ = _ := by ring
  calc |S - t * Y| = |(S - t * X) + t * (X - Y)| := by ring_nf
    _ ≤ |S - t * X| + |t * (X - Y)| := abs_add_le _ _
    _ ≤ (B - 1) * (t * (s * A * P)) + t * (s * (A - 1) * P) := by
        rw [abs_mul, abs_of_nonneg ht]
        refine add_le_add (h3.trans (mul_le_mul_of_nonneg_left (mul_le_mul_of_nonneg_left h4 ht) (by linarith)))
          (mul_le_mul_of_nonneg_left h1 ht)
    _ = _ := by ring

theorem from_crp [NeZero n] (h : StdRounding u fl) (a b : E n) :
    ∃ z : E n, @Vec.fromPoints ℝ (rounded fl) (arr a) (arr b) = .ok (arr z) ∧ CRP (eps u) 1 z (b - a) := by
  obtain ⟨z, hz, hi⟩ := fromPoints_rd fl a b
  exact ⟨z, hz, fun i => by rw [hi i]; exact h.rp _⟩

theorem one_le_sqrt_two : 1 ≤ Real.sqrt 2 := by
  rw [Real.one_le_sqrt]; norm_num

/-- C91: `v.cross(w)` under rounding is within `√2 ((1-u)^(-2) - 1) ‖v‖ ‖w‖` of the exact cross product (vectors of
dimension up to 3). -/
theorem C91_cross [NeZero n] (hn : n ≤ 3) (h : StdRounding u fl) (v w : E n) :
    ∃ c c' : E 3, @Vec.cross ℝ (rounded fl) (arr v) (arr w) = .ok (arr c') ∧ Vec.cross (arr v) (arr w) = .ok (arr c) ∧
      dist c' c ≤ Real.sqrt 2 * (((1 - u) ^ 2)⁻¹ - 1) * (‖v‖ * ‖w‖) := by
  obtain ⟨c, hc, he⟩ := cross_rd hn h le_rfl (CRP.refl (eps u) v) (CRP.refl (eps u) w)
  refine ⟨_, c, hc, cross_arr hn hn v w, ?_⟩
  rw [dist_eq_norm]
  rw [h.exp_eps, show (2 * 0 + 2 : ℝ) = ((2 : ℕ) : ℝ) by norm_num, Real.rpow_natCast] at he
  exact he

/-- C91: `area_triangle(a, b, c)` under rounding is within `((1-u)^(-9) - 1) |ab| |ac| / √2` of the exact area. -/
theorem C91_area_triangle [NeZero n] (hn : n ≤ 3) (h : StdRounding u fl) (a b c : E n) :
    ∃ s s', @Measurement.areaTriangle ℝ (rounded fl) (arr a) (arr b) (arr c) = .ok s' ∧
      Measurement.areaTriangle (arr a) (arr b) (arr c) = .ok s ∧
      |s' - s| ≤ (((1 - u) ^ 9)⁻¹ - 1) * (dist a b * dist a c) / Real.sqrt 2 := by
  have hε := h.eps_nonneg
  obtain ⟨z, hz, cz⟩ := from_crp h a b
  obtain ⟨w, hw, cw⟩ := from_crp h a c
  obtain ⟨x, hx, ex⟩ := cross_rd hn h (by norm_num) cz cw
  have hN := h.normv_rp le_rfl (CRP.refl (eps u) x)
  have hS := h.step ((h.rp (1 / 2)).mul hN)
  refine ⟨_, fl (fl (1 / 2) * @normv ℝ (rounded fl) (arr x)), ?_, areaTriangle_arr hn a b c, ?_⟩
  · simp only [Measurement.areaTriangle, hz, hw, ok_bind, hx, pure_ok, half_rd, mul_rd, Vec.norm]
  have e3 := hS.abs_sub_le
  have h0 : 0 ≤ 1 / 2 * ‖x‖ := by positivity
  rw [abs_of_nonneg h0] at e3
  have := chain_error (A := Real.exp ((2 * 1 + 2) * eps u))
    (B := Real.exp ((1 + (0 + ((3 : ℕ) + 3) / 2) + 1) * eps u))
    (Real.one_le_exp (by positivity)) (Real.one_le_exp (by positivity)) one_le_sqrt_two
    (by norm_num : (0 : ℝ) ≤ 1 / 2) ((abs_norm_sub_norm_le _ _).trans ex)
    (by rw [abs_norm]; exact (norm_crossE_le _ _).trans (by rw [norm_pad3 hn, norm_pad3 hn])) (by
      rw [abs_norm]; exact e3)
  rw [← Real.exp_add, ← add_mul, h.exp_eps, show (2 * 1 + 2 + (1 + (0 + ((3 : ℕ) + 3) / 2) + 1) : ℝ) = ((9 : ℕ) : ℝ) by
    norm_num, Real.rpow_natCast] at this
  refine this.trans (le_of_eq ?_)
  rw [dist_comm a b, dist_comm a c, dist_eq_norm, dist_eq_norm]
  have h2 : Real.sqrt 2 * Real.sqrt 2 = 2 := Real.mul_self_sqrt (by norm_num)
  have h3 : Real.sqrt 2 ≠ 0 := by positivity
  field_simp
  rw [pow_two, h2]
  ring


/-- C91: `volume_tetrahedron(a, b, c, d)` under rounding is within `√2/6 ((1-u)^(-11) - 1) |ab| |ac| |ad|` of the exact
volume. -/
theorem C91_volume_tetrahedron [NeZero n] (hn : n ≤ 3) (h : StdRounding u fl) (a b c d : E n) :
    ∃ s s', @Measurement.volumeTetrahedron ℝ (rounded fl) (arr a) (arr b) (arr c) (arr d) = .ok s' ∧
      Measurement.volumeTetrahedron (arr a) (arr b) (arr c) (arr d) = .ok s ∧
      |s' - s| ≤ Real.sqrt 2 / 6 * (((1 - u) ^ 11)⁻¹ - 1) * (dist a b * dist a c * dist a d) := by
  have hε := h.eps_nonneg
  obtain ⟨y, hy, cy⟩ := from_crp h a b
  obtain ⟨z, hz, cz⟩ := from_crp h a c
  obtain ⟨w, hw, cw⟩ := from_crp h a d
  obtain ⟨x, hx, ex⟩ := cross_rd hn h (by norm_num) cz cw
  obtain ⟨V, hV⟩ : ∃ V, V = @dotv ℝ (rounded fl) (arr (pad3 y)) (arr x) := ⟨_, rfl⟩
  obtain ⟨c0, hc0⟩ : ∃ c0, c0 = crossE (pad3 (c - a)) (pad3 (d - a)) := ⟨_, rfl⟩
  obtain ⟨W, hW⟩ : ∃ W : ℝ, W = inner ℝ (pad3 (b - a)) c0 := ⟨_, rfl⟩
  refine ⟨1 / 6 * |W|, fl (fl (1 / 6) * |V|), ?_, ?_, ?_⟩
  · simp only [Measurement.volumeTetrahedron, hy, hz, hw, ok_bind, hx, setDimension3_rd hn, dot_rd, pure_ok, mul_rd,
      div_rd, ofInt_rd, abs_rd, hV]
    norm_num
  · simp only [Measurement.volumeTetrahedron, fromPoints_arr, ok_bind, cross_arr hn hn, setDimension3_arr _ hn,
      dot_arr, pure_ok, hW, hc0]
    norm_num
  have e1 := h.dotv_abs' (by norm_num) le_rfl (pad3_crp (by positivity) cy) (CRP.refl (eps u) x)
  rw [← hV, norm_pad3 hn] at e1
  have n0 : ‖c0‖ ≤ ‖c - a‖ * ‖d - a‖ := by
    rw [hc0]; exact (norm_crossE_le _ _).trans (by rw [norm_pad3 hn, norm_pad3 hn])
  rw [← hc0] at ex
  have e2 : |inner ℝ (pad3 (b - a)) x - W| ≤ ‖b - a‖ * ‖x - c0‖ := by
    rw [hW, ← inner_sub_right, ← norm_pad3 hn (b - a)]
    exact abs_real_inner_le_norm _ _
  obtain ⟨A, hA⟩ : ∃ A, A = Real.exp ((2 * 1 + 2) * eps u) := ⟨_, rfl⟩
  obtain ⟨B, hB⟩ : ∃ B, B = Real.exp ((1 + 0 + 1 + (3 : ℕ)) * eps u) := ⟨_, rfl⟩
  obtain ⟨C, hC⟩ : ∃ C, C = Real.exp ((1 + 0 + 1) * eps u) := ⟨_, rfl⟩
  have hA1 : 1 ≤ A := by rw [hA]; exact Real.one_le_exp (by positivity)
  have hB1 : 1 ≤ B := by rw [hB]; exact Real.one_le_exp (by positivity)
  have hC1 : 1 ≤ C := by rw [hC]; exact Real.one_le_exp (by positivity)
  rw [← hA] at ex
  rw [← hB] at e1
  have s2 := one_le_sqrt_two
  obtain ⟨s, hs⟩ : ∃ s, s = Real.sqrt 2 := ⟨_, rfl⟩
  rw [← hs] at ex s2 ⊢
  obtain ⟨p, hp⟩ : ∃ p, p = ‖b - a‖ := ⟨_, rfl⟩
  obtain ⟨q, hq⟩ : ∃ q, q = ‖c - a‖ * ‖d - a‖ := ⟨_, rfl⟩
  have p0 : 0 ≤ p := hp ▸ norm_nonneg _
  have q0 : 0 ≤ q := by rw [hq]; positivity
  rw [← hp] at e1 e2
  rw [← hq] at ex n0
  have nx : ‖x‖ ≤ s * A * q := by
    calc ‖x‖ = ‖(x - c0) + c0‖ := by congr 1; abel
      _ ≤ ‖x - c0‖ + ‖c0‖ := norm_add_le _ _
      _ ≤ s * (A - 1) * q + q := add_le_add ex n0
      _ ≤ s * (A - 1) * q + s * q := by nlinarith
      _ = _ := by ring
  have e3 : |V - W| ≤ s * (A * B - 1) * (p * q) := by
    calc |V - W| = |(V - inner ℝ (pad3 (b - a)) x) + (inner ℝ (pad3 (b - a)) x - W)| := by ring_nf
      _ ≤ |V - inner ℝ (pad3 (b - a)) x| + |inner ℝ (pad3 (b - a)) x - W| := abs_add_le _ _
      _ ≤ (B - 1) * (p * (s * A * q)) + p * (s * (A - 1) * q) :=
          add_le_add (e1.trans (mul_le_mul_of_nonneg_left (mul_le_mul_of_nonneg_left nx p0) (by linarith)))
            (e2.trans (mul_le_mul_of_nonneg_left ex p0))
      _ = _ := by ring
  have e4 : |W| ≤ p * q := by
    rw [hW]
    refine (abs_real_inner_le_norm _ _).trans ?_
    rw [norm_pad3 hn, ← hp]
    exact mul_le_mul_of_nonneg_left n0 p0
  have e5 := (h.step ((h.rp (1 / 6)).mul (RP.refl (eps u) |V|))).abs_sub_le
  rw [← hC, abs_of_nonneg (by positivity : 0 ≤ 1 / 6 * |V|)] at e5
  have := chain_error (A := A * B) (by nlinarith) hC1 s2 (by norm_num : (0 : ℝ) ≤ 1 / 6)
    ((abs_abs_sub_abs_le_abs_sub V W).trans e3) (by rw [abs_abs]; exact e4) (by rw [abs_abs]; exact e5)
  rw [hA, hB, hC, ← Real.exp_add, ← Real.exp_add, ← add_mul, ← add_mul, h.exp_eps,
    show (2 * 1 + 2 + (1 + 0 + 1 + (3 : ℕ)) + (1 + 0 + 1) : ℝ) = ((11 : ℕ) : ℝ) by norm_num, Real.rpow_natCast] at this
  refine this.trans (le_of_eq ?_)
  rw [dist_comm a b, dist_comm a c, dist_comm a d, dist_eq_norm, dist_eq_norm, dist_eq_norm, hp, hq]
  ring

end SkSpatial
