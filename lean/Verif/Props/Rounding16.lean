import Verif.Props.Rounding15
/-! # C110: intersections of circles under rounding -/

namespace SkSpatial
open StdRounding

variable {u : ℝ} {fl : Arith} {n : ℕ}

/-- The vector turned by a quarter turn. -/
noncomputable def turn (e : E 2) : E 2 := vec2 (-e 1) (e 0)

theorem norm_turn (e : E 2) : ‖turn e‖ = ‖e‖ := by
  rw [← sq_eq_sq₀ (norm_nonneg _) (norm_nonneg _), norm_sq2, norm_sq2]; simp [turn, vec2]; ring

theorem norm_frame {e : E 2} (he : ‖e‖ = 1) (a h : ℝ) : ‖a • e + h • turn e‖ ^ 2 = a ^ 2 + h ^ 2 := by
  have hee : e 0 ^ 2 + e 1 ^ 2 = 1 := by rw [← norm_sq2, he, one_pow]
  rw [norm_sq2]
  show (a * e 0 + h * -e 1) ^ 2 + (a * e 1 + h * e 0) ^ 2 = _
  linear_combination (a ^ 2 + h ^ 2) * hee

/-- Numerator over denominator: the rounded distance along the line of centers. -/
theorem cc_along (h : StdRounding u fl) (hu : u ≤ 1 / 10 ^ 4) {d' d r s N : ℝ} (hd : 0 < d) (hd' : RP (eps u) (7 / 2) d' d)
    (hN : N = r ^ 2 + s ^ 2 + d ^ 2) :
    |fl (fl (fl (fl (r * r) - fl (s * s)) + fl (d' * d')) / fl (2 * d')) - (r ^ 2 - s ^ 2 + d ^ 2) / (2 * d)| ≤ 15 * u * (N / d) := by
  have hu0 := h.nonneg
  have hN0 : 0 ≤ N := by rw [hN]; positivity
  have huN := mul_nonneg hu0 hN0
  have e1 : |fl (r * r) - r ^ 2| ≤ u * r ^ 2 := by
    have := h.err (r * r)
    rw [abs_of_nonneg (mul_self_nonneg r)] at this
    rw [pow_two]; exact this
  have e2 : |fl (s * s) - s ^ 2| ≤ u * s ^ 2 := by
    have := h.err (s * s)
    rw [abs_of_nonneg (mul_self_nonneg s)] at this
    rw [pow_two]; exact this
  have e3 := fl_sub_near h e1 e2 (abs_of_nonneg (sq_nonneg r)).le (abs_of_nonneg (sq_nonneg s)).le
  have e4 : |fl (d' * d') - d ^ 2| ≤ 16 * u * d ^ 2 := by
    have := (h.step (hd'.mul hd')).abs_sub_le
    rw [← pow_two d, abs_of_nonneg (sq_nonneg d)] at this
    refine this.trans (mul_le_mul_of_nonneg_right ?_ (sq_nonneg d))
    rw [show (7 / 2 + 7 / 2 + 1 : ℝ) = 8 by norm_num]
    exact (exp_eps_le2 h (by norm_num) (by norm_num at hu; linarith)).trans (by linarith)
  have hrs : |r ^ 2 - s ^ 2| ≤ r ^ 2 + s ^ 2 := by
    refine (abs_sub _ _).trans ?_
    rw [abs_of_nonneg (sq_nonneg r), abs_of_nonneg (sq_nonneg s)]
  have e5 := fl_add_near h e3 e4 hrs (abs_of_nonneg (sq_nonneg d)).le
  obtain ⟨A, hA⟩ : ∃ A, A = r ^ 2 - s ^ 2 + d ^ 2 := ⟨_, rfl⟩
  obtain ⟨A', hA'⟩ : ∃ A', A' = fl (fl (fl (r * r) - fl (s * s)) + fl (d' * d')) := ⟨_, rfl⟩
  rw [← hA, ← hA'] at e5
  rw [← hA, ← hA']
  have e6 : |A' - A| ≤ 18 * (u * N) := by
    refine e5.trans ?_
    obtain ⟨X, hX⟩ : ∃ X, X = u * (r ^ 2 + s ^ 2) := ⟨_, rfl⟩
    obtain ⟨Y, hY⟩ : ∃ Y, Y = u * d ^ 2 := ⟨_, rfl⟩
    have hX0 : 0 ≤ X := by rw [hX]; positivity
    have hY0 : 0 ≤ Y := by rw [hY]; positivity
    have hXu : u * X ≤ 1 / 10 ^ 4 * X := mul_le_mul_of_nonneg_right hu hX0
    have hYu : u * Y ≤ 1 / 10 ^ 4 * Y := mul_le_mul_of_nonneg_right hu hY0
    have hXuu : u * (u * X) ≤ 1 / 10 ^ 4 * (u * X) := mul_le_mul_of_nonneg_right hu (by positivity)
    rw [show 18 * (u * N) = 18 * X + 18 * Y by rw [hX, hY, hN]; ring]
    have : u * r ^ 2 + u * s ^ 2 + u * (r ^ 2 + s ^ 2 + u * r ^ 2 + u * s ^ 2) + 16 * u * d ^ 2 +
        u * (r ^ 2 + s ^ 2 + d ^ 2 + (u * r ^ 2 + u * s ^ 2 + u * (r ^ 2 + s ^ 2 + u * r ^ 2 + u * s ^ 2)) + 16 * u * d ^ 2) =
        3 * X + 17 * Y + 3 * (u * X) + 16 * (u * Y) + u * (u * X) := by rw [hX, hY]; ring
    rw [this]
    norm_num at hXu hYu hXuu
    linarith
  have rden := h.step ((RP.refl (eps u) (2 : ℝ)).mul hd')
  have rq := h.step ((RP.refl (eps u) A').div rden)
  rw [show (0 + (0 + 7 / 2 + 1) + 1 : ℝ) = 11 / 2 by norm_num] at rq
  have e7 := rq.abs_sub_le
  have x11 : Real.exp (11 / 2 * eps u) - 1 ≤ 11 * u :=
    (exp_eps_le2 h (by norm_num) (by norm_num at hu; linarith)).trans (by linarith)
  have hAN : |A| ≤ N := by
    rw [hA, hN, abs_le]
    constructor <;> nlinarith [sq_nonneg r, sq_nonneg s, sq_nonneg d]
  have hA'N : |A'| ≤ 101 / 100 * N := by
    have := abs_add_le (A' - A) A
    rw [sub_add_cancel] at this
    have : 18 * (u * N) ≤ 1 / 100 * N := by
      have := mul_le_mul_of_nonneg_right hu hN0
      norm_num at this; linarith
    linarith
  have hd2 : 0 < 2 * d := by positivity
  obtain ⟨M, hM⟩ : ∃ M, M = N / d := ⟨_, rfl⟩
  have hM0 : 0 ≤ M := by rw [hM]; positivity
  rw [← hM]
  have q1 : |A' / (2 * d)| ≤ 101 / 200 * M := by
    rw [abs_div, abs_of_pos hd2, div_le_iff₀ hd2, hM]
    have : 101 / 200 * (N / d) * (2 * d) = 101 / 100 * N := by field_simp; ring
    rw [this]; exact hA'N
  have q2 : |A' / (2 * d) - A / (2 * d)| ≤ 9 * (u * M) := by
    rw [← sub_div, abs_div, abs_of_pos hd2, div_le_iff₀ hd2, hM]
    have : 9 * (u * (N / d)) * (2 * d) = 18 * (u * N) := by field_simp; ring
    rw [this]; exact e6
  have q3 := mul_le_mul x11 q1 (abs_nonneg _) (by positivity)
  have q4 := abs_add_le (fl (A' / fl (2 * d')) - A' / (2 * d)) (A' / (2 * d) - A / (2 * d))
  rw [sub_add_sub_cancel] at q4
  have : 15 * u * M = 15 * (u * M) := by ring
  rw [this]
  have := mul_nonneg hu0 hM0
  linarith

/-- The rounded squared half chord against `r² - a²` for the rounded `a`. -/
theorem cc_chord (h : StdRounding u fl) (hu : u ≤ 1 / 10 ^ 4) (r a : ℝ) :
    |fl (fl (r * r) - fl (a * a)) - (r ^ 2 - a ^ 2)| ≤ 201 / 100 * (u * (r ^ 2 + a ^ 2)) := by
  have hu0 := h.nonneg
  have e1 : |fl (r * r) - r ^ 2| ≤ u * r ^ 2 := by
    have := h.err (r * r)
    rw [abs_of_nonneg (mul_self_nonneg r)] at this
    rw [pow_two]; exact this
  have e2 : |fl (a * a) - a ^ 2| ≤ u * a ^ 2 := by
    have := h.err (a * a)
    rw [abs_of_nonneg (mul_self_nonneg a)] at this
    rw [pow_two]; exact this
  refine (fl_sub_near h e1 e2 (abs_of_nonneg (sq_nonneg r)).le (abs_of_nonneg (sq_nonneg a)).le).trans ?_
  obtain ⟨X, hX⟩ : ∃ X, X = u * (r ^ 2 + a ^ 2) := ⟨_, rfl⟩
  have hX0 : 0 ≤ X := by rw [hX]; positivity
  have hXu : u * X ≤ 1 / 10 ^ 4 * X := mul_le_mul_of_nonneg_right hu hX0
  rw [← hX, show u * r ^ 2 + u * a ^ 2 + u * (r ^ 2 + a ^ 2 + u * r ^ 2 + u * a ^ 2) = 2 * X + u * X by rw [hX]; ring]
  norm_num at hXu
  linarith

/-- If the rounded squared half chord is not negative, then `|a| ≤ 1.01 r`. -/
theorem cc_along_le (h : StdRounding u fl) (hu : u ≤ 1 / 10 ^ 4) {r a : ℝ} (hr : 0 < r) (h0 : 0 ≤ fl (fl (r * r) - fl (a * a))) :
    |a| ≤ 101 / 100 * r := by
  have hu0 := h.nonneg
  have e := (abs_le.mp (cc_chord h hu r a)).2
  refine le_of_sq_le_sq ?_ (by positivity)
  rw [sq_abs]
  have e2 : u * (r ^ 2 + a ^ 2) ≤ 1 / 10 ^ 4 * (r ^ 2 + a ^ 2) := mul_le_mul_of_nonneg_right hu (by positivity)
  norm_num at e2
  nlinarith

/-- One of the two points computed by `circle.intersect_circle`. -/
theorem cc_point (h : StdRounding u fl) (hu : u ≤ 1 / 10 ^ 4) {p q : E 2} {d d' a hh r : ℝ} (hd : 0 < d) (hdd : d = dist p q)
    (hd' : RP (eps u) (7 / 2) d' d) (hr : 0 < r) (ha : |a| ≤ 101 / 100 * r) (hh0 : 0 ≤ hh) (hhr : hh ≤ 101 / 100 * r)
    {v m mid : E 2} (hv : CRP (eps u) 1 v (q - p)) (hm : ∀ i, m i = fl (fl (a * v i) / d')) (hmid : ∀ i, mid i = fl (p i + m i))
    (pm : ℝ) (hpm : |pm| = 1) :
    ‖vec2 (fl (mid 0 + fl (fl (fl (pm * fl hh) * fl (p 1 - q 1)) / d'))) (fl (mid 1 - fl (fl (fl (pm * fl hh) * fl (p 0 - q 0)) / d'))) -
      (p + (a • (d⁻¹ • (q - p)) + (pm * hh) • turn (d⁻¹ • (q - p))))‖ ≤ u * (5 * ‖p‖ + 40 * r) := by
  have hu0 := h.nonneg
  have hε := h.eps_nonneg
  have hu1 : u ≤ 1 / 1000 := by norm_num at hu; linarith
  obtain ⟨e, he⟩ : ∃ e, e = d⁻¹ • (q - p) := ⟨_, rfl⟩
  have hen : ‖e‖ = 1 := by
    rw [he, norm_smul, norm_inv, Real.norm_eq_abs, abs_of_pos hd, ← dist_eq_norm, dist_comm, ← hdd, inv_mul_cancel₀ hd.ne']
  rw [← he]
  have x1 : Real.exp (1 * eps u) - 1 ≤ 2 * 1 * u := exp_eps_le2 h le_rfl (by linarith)
  have c1 : CRP (eps u) (13 / 2) m (a • e) := by
    intro i
    rw [hm]
    have := h.step ((h.step ((RP.refl (eps u) a).mul (hv i))).div hd')
    rw [show (0 + 1 + 1 + 7 / 2 + 1 : ℝ) = 13 / 2 by norm_num] at this
    have e1 : (a • e) i = a * (q - p) i / d := by rw [he]; simp; field_simp
    rw [e1]; exact this
  have n1 : ‖m - a • e‖ ≤ 1314 / 100 * (u * r) := by
    refine (CRP.norm_sub_le c1 (by positivity)).trans ?_
    rw [norm_smul, hen, mul_one, Real.norm_eq_abs]
    have x := exp_eps_le2 h (k := 13 / 2) (by norm_num) (by linarith)
    have := mul_le_mul x ha (abs_nonneg _) (by positivity)
    have hur := mul_nonneg hu0 hr.le
    linarith
  have hur : u * r ≤ 1 / 1000 * r := mul_le_mul_of_nonneg_right hu1 hr.le
  have hur0 := mul_nonneg hu0 hr.le
  have n1' : ‖m‖ ≤ 103 / 100 * r := by
    have := norm_add_le (m - a • e) (a • e)
    rw [sub_add_cancel, norm_smul, hen, mul_one, Real.norm_eq_abs] at this
    linarith
  have c2 : CRP (eps u) 1 mid (p + m) := fun i => by rw [hmid]; exact h.rp _
  have n2 : ‖mid - (p + m)‖ ≤ 2 * (u * ‖p‖) + 206 / 100 * (u * r) := by
    refine (CRP.norm_sub_le c2 (by positivity)).trans ?_
    have := mul_le_mul x1 ((norm_add_le p m).trans (add_le_add le_rfl n1')) (norm_nonneg _) (by positivity)
    linarith
  obtain ⟨g, hg⟩ : ∃ g : E 2, g = vec2 (fl (fl (fl (pm * fl hh) * fl (p 1 - q 1)) / d')) (-fl (fl (fl (pm * fl hh) * fl (p 0 - q 0)) / d')) :=
    ⟨_, rfl⟩
  have rg : ∀ x y : ℝ, RP (eps u) (17 / 2) (fl (fl (fl (pm * fl hh) * fl (x - y)) / d')) (pm * hh * (x - y) / d) := by
    intro x y
    have := h.step ((h.step ((h.step ((RP.refl (eps u) pm).mul (h.rp hh))).mul (h.rp (x - y)))).div hd')
    rwa [show (0 + 1 + 1 + 1 + 1 + 7 / 2 + 1 : ℝ) = 17 / 2 by norm_num] at this
  have c3 : CRP (eps u) (17 / 2) g ((pm * hh) • turn e) := by
    intro i
    fin_cases i
    · have e1 : ((pm * hh) • turn e) 0 = pm * hh * (p 1 - q 1) / d := by
        show pm * hh * -(e 1) = _
        rw [he]; show pm * hh * -(d⁻¹ * (q 1 - p 1)) = _; field_simp; ring
      show RP _ _ (g 0) (((pm * hh) • turn e) 0)
      rw [e1, hg]; exact rg _ _
    · have e1 : ((pm * hh) • turn e) 1 = -(pm * hh * (p 0 - q 0) / d) := by
        show pm * hh * (e 0) = _
        rw [he]; show pm * hh * (d⁻¹ * (q 0 - p 0)) = _; field_simp; ring
      show RP _ _ (g 1) (((pm * hh) • turn e) 1)
      rw [e1, hg]; exact (rg _ _).neg
  have nT : ‖(pm * hh) • turn e‖ ≤ 101 / 100 * r := by
    rw [norm_smul, norm_turn, hen, mul_one, Real.norm_eq_abs, abs_mul, hpm, one_mul, abs_of_nonneg hh0]; exact hhr
  have n3 : ‖g - (pm * hh) • turn e‖ ≤ 1718 / 100 * (u * r) := by
    refine (CRP.norm_sub_le c3 (by positivity)).trans ?_
    have x := exp_eps_le2 h (k := 17 / 2) (by norm_num) (by linarith)
    have := mul_le_mul x nT (norm_nonneg _) (by positivity)
    linarith
  have n3' : ‖g‖ ≤ 103 / 100 * r := by
    have := norm_add_le (g - (pm * hh) • turn e) ((pm * hh) • turn e)
    rw [sub_add_cancel] at this
    linarith
  obtain ⟨y, hy⟩ : ∃ y : E 2, y = vec2 (fl (mid 0 + fl (fl (fl (pm * fl hh) * fl (p 1 - q 1)) / d')))
    (fl (mid 1 - fl (fl (fl (pm * fl hh) * fl (p 0 - q 0)) / d'))) := ⟨_, rfl⟩
  rw [← hy]
  have c4 : CRP (eps u) 1 y (mid + g) := by
    intro i
    fin_cases i
    · show RP _ _ (y 0) (mid 0 + g 0)
      rw [hy, hg]; exact h.rp _
    · show RP _ _ (y 1) (mid 1 + g 1)
      rw [hy, hg]
      exact h.rp _
  have nmid : ‖mid‖ ≤ ‖p‖ + 2 * (u * ‖p‖) + 104 / 100 * r := by
    have h1 := norm_add_le (mid - (p + m)) (p + m)
    rw [sub_add_cancel] at h1
    have h2 := norm_add_le p m
    linarith
  have hup : u * ‖p‖ ≤ 1 / 10 ^ 4 * ‖p‖ := mul_le_mul_of_nonneg_right hu (norm_nonneg p)
  have hup0 := mul_nonneg hu0 (norm_nonneg p)
  have n4 : ‖y - (mid + g)‖ ≤ 3 * (u * ‖p‖) + 5 * (u * r) := by
    refine (CRP.norm_sub_le c4 (by positivity)).trans ?_
    have := mul_le_mul x1 ((norm_add_le mid g).trans (add_le_add nmid n3')) (norm_nonneg _) (by positivity)
    have h1 : u * (u * ‖p‖) ≤ 1 / 10 ^ 4 * (u * ‖p‖) := mul_le_mul_of_nonneg_right hu hup0
    norm_num at h1
    have h2 : 2 * 1 * u * (‖p‖ + 2 * (u * ‖p‖) + 104 / 100 * r + 103 / 100 * r) =
      2 * (u * ‖p‖) + 4 * (u * (u * ‖p‖)) + 414 / 100 * (u * r) := by ring
    linarith
  have e5 : y - (p + (a • e + (pm * hh) • turn e)) =
      (y - (mid + g)) + (mid - (p + m)) + ((m - a • e) + (g - (pm * hh) • turn e)) := by module
  rw [e5]
  refine (norm_add₃_le).trans ?_
  have h3 := norm_add_le (m - a • e) (g - (pm * hh) • turn e)
  have h4 : u * (5 * ‖p‖ + 40 * r) = 5 * (u * ‖p‖) + 40 * (u * r) := by ring
  rw [h4]
  linarith

/-- The exact common points, in the frame of the line of centers. -/
theorem cc_exact {p q : E 2} {r s d a : ℝ} (hr : 0 < r) (hs : 0 < s) (hpq : p ≠ q) (hdd : d = dist p q)
    (ha : a = (r ^ 2 - s ^ 2 + d ^ 2) / (2 * d)) (hne : (Metric.sphere p r ∩ Metric.sphere q s).Nonempty) :
    0 ≤ r ^ 2 - a ^ 2 ∧ d ≤ r + s ∧ |r - s| ≤ d ∧ Metric.sphere p r ∩ Metric.sphere q s =
      {p + (a • (d⁻¹ • (q - p)) + (1 * √(r ^ 2 - a ^ 2)) • turn (d⁻¹ • (q - p))),
        p + (a • (d⁻¹ • (q - p)) + ((-1) * √(r ^ 2 - a ^ 2)) • turn (d⁻¹ • (q - p)))} := by
  have hC := Circle.new_arr p hr
  have hD := Circle.new_arr q hs
  obtain ⟨x, y, hv, hset, -⟩ := (C44_intersect_circle hC hD).2 hpq hne
  obtain ⟨h1, h2⟩ : dist p q ≤ r + s ∧ |r - s| ≤ dist p q := by
    obtain ⟨z, hz1, hz2⟩ := hne
    rw [Metric.mem_sphere] at hz1 hz2
    constructor
    · calc dist p q ≤ dist p z + dist z q := dist_triangle _ _ _
        _ = r + s := by rw [dist_comm p z, hz1, hz2]
    · rw [← hz1, ← hz2, dist_comm z p, dist_comm z q]
      exact abs_dist_sub_le p q z
  have hd : 0 < d := by rw [hdd]; exact dist_pos.mpr hpq
  rw [← hdd] at h1 h2
  have hh : 0 ≤ r ^ 2 - a ^ 2 := by
    have had : 2 * d * a = r ^ 2 - s ^ 2 + d ^ 2 := by rw [ha]; field_simp
    obtain ⟨h2a, h2b⟩ := abs_le.mp h2
    have hprod : 4 * d ^ 2 * (r ^ 2 - a ^ 2) = (s - d + r) * (s + d - r) * ((d + r - s) * (d + r + s)) := by
      linear_combination (-(2 * d * a) - (r ^ 2 - s ^ 2 + d ^ 2)) * had
    have hpos : 0 < 4 * d ^ 2 := by positivity
    refine nonneg_of_mul_nonneg_right ?_ hpos
    rw [hprod]
    exact mul_nonneg (mul_nonneg (by linarith) (by linarith)) (mul_nonneg (by linarith) (by linarith))
  refine ⟨hh, h1, h2, ?_⟩
  have hval := intersectCircle_vals (p := p) (q := q) (r := r) (s := s) (by rw [← hdd]; exact hd.ne') (by rw [← hdd]; exact h1)
    (by rw [← hdd]; exact h2) (by rw [← hdd]; exact ha) hh rfl
  rw [hv] at hval
  obtain ⟨hx, hy⟩ := Prod.mk.inj (Except.ok.inj hval)
  have hx := arr_injective hx
  have hy := arr_injective hy
  rw [hset, hx, hy, ← hdd]
  congr 1
  · ext i
    fin_cases i
    · show p 0 + a * (q 0 - p 0) / d + √(r ^ 2 - a ^ 2) * (p 1 - q 1) / d =
        p 0 + (a * (d⁻¹ * (q 0 - p 0)) + 1 * √(r ^ 2 - a ^ 2) * -(d⁻¹ * (q 1 - p 1)))
      ring
    · show p 1 + a * (q 1 - p 1) / d - √(r ^ 2 - a ^ 2) * (p 0 - q 0) / d =
        p 1 + (a * (d⁻¹ * (q 1 - p 1)) + 1 * √(r ^ 2 - a ^ 2) * (d⁻¹ * (q 0 - p 0)))
      ring
  · congr 1
    ext i
    fin_cases i
    · show p 0 + a * (q 0 - p 0) / d - √(r ^ 2 - a ^ 2) * (p 1 - q 1) / d =
        p 0 + (a * (d⁻¹ * (q 0 - p 0)) + -1 * √(r ^ 2 - a ^ 2) * -(d⁻¹ * (q 1 - p 1)))
      ring
    · show p 1 + a * (q 1 - p 1) / d + √(r ^ 2 - a ^ 2) * (p 0 - q 0) / d =
        p 1 + (a * (d⁻¹ * (q 1 - p 1)) + -1 * √(r ^ 2 - a ^ 2) * (d⁻¹ * (q 0 - p 0)))
      ring

theorem exp_five (h : StdRounding u fl) : Real.exp (5 * eps u) * (1 - u) ^ 5 = 1 := by
  have h1 : 0 < 1 - u := by linarith [h.lt_one]
  have h2 := h.exp_eps 5
  rw [show ((5 : ℝ)) = ((5 : ℕ) : ℝ) by norm_num, Real.rpow_natCast] at h2
  rw [show ((5 : ℝ)) = ((5 : ℕ) : ℝ) by norm_num, h2]
  exact inv_mul_cancel₀ (by positivity)

theorem rp_lt (h : StdRounding u fl) {a b x y : ℝ} (ha : RP (eps u) 1 a x) (hb : RP (eps u) (7 / 2) b y) (hx : 0 ≤ x)
    (hxy : x < (1 - u) ^ 5 * y) : a < b := by
  have hε := h.eps_nonneg
  have h1 : 0 < 1 - u := by linarith [h.lt_one]
  have hy : 0 < y := by
    have : 0 < (1 - u) ^ 5 * y := by linarith
    exact pos_of_mul_pos_right this (by positivity)
  have e1 := ha.le hx
  have e2 := hb.le' hy.le
  have e3 := exp_five h
  have e4 : Real.exp (1 * eps u) * Real.exp (7 / 2 * eps u) ≤ Real.exp (5 * eps u) := by
    rw [← Real.exp_add, Real.exp_le_exp]; linarith
  have p1 := Real.exp_pos (1 * eps u)
  have p2 := Real.exp_pos (7 / 2 * eps u)
  have p3 := Real.exp_pos (5 * eps u)
  have e5 : Real.exp (7 / 2 * eps u) * a < Real.exp (7 / 2 * eps u) * b := by
    calc Real.exp (7 / 2 * eps u) * a ≤ Real.exp (7 / 2 * eps u) * (Real.exp (1 * eps u) * x) :=
          mul_le_mul_of_nonneg_left e1 p2.le
      _ = Real.exp (1 * eps u) * Real.exp (7 / 2 * eps u) * x := by ring
      _ ≤ Real.exp (5 * eps u) * x := mul_le_mul_of_nonneg_right e4 hx
      _ < Real.exp (5 * eps u) * ((1 - u) ^ 5 * y) := mul_lt_mul_of_pos_left hxy p3
      _ = y := by rw [← mul_assoc, e3, one_mul]
      _ ≤ _ := e2
  exact lt_of_mul_lt_mul_left e5 p2.le

theorem rp_lt' (h : StdRounding u fl) {a b x y : ℝ} (ha : RP (eps u) 1 a x) (hb : RP (eps u) (7 / 2) b y) (hx : 0 ≤ x) (hy : 0 ≤ y)
    (hxy : y < (1 - u) ^ 5 * x) : b < a := by
  have hε := h.eps_nonneg
  have e1 := hb.le hy
  have e2 := ha.le' hx
  have e3 := exp_five h
  have e4 : Real.exp (1 * eps u) * Real.exp (7 / 2 * eps u) ≤ Real.exp (5 * eps u) := by
    rw [← Real.exp_add, Real.exp_le_exp]; linarith
  have p1 := Real.exp_pos (1 * eps u)
  have p2 := Real.exp_pos (7 / 2 * eps u)
  have p3 := Real.exp_pos (5 * eps u)
  have e5 : Real.exp (1 * eps u) * b < Real.exp (1 * eps u) * a := by
    calc Real.exp (1 * eps u) * b ≤ Real.exp (1 * eps u) * (Real.exp (7 / 2 * eps u) * y) :=
          mul_le_mul_of_nonneg_left e1 p1.le
      _ = Real.exp (1 * eps u) * Real.exp (7 / 2 * eps u) * y := by ring
      _ ≤ Real.exp (5 * eps u) * y := mul_le_mul_of_nonneg_right e4 hy
      _ < Real.exp (5 * eps u) * ((1 - u) ^ 5 * x) := mul_lt_mul_of_pos_left hxy p3
      _ = x := by rw [← mul_assoc, e3, one_mul]
      _ ≤ _ := e2
  exact lt_of_mul_lt_mul_left e5 p1.le

theorem rp_gap (h : StdRounding u fl) (hu : u ≤ 1 / 10 ^ 4) {a b x y : ℝ} (ha : RP (eps u) 1 a x) (hb : RP (eps u) (7 / 2) b y)
    (hx : 0 ≤ x) (hy : 0 ≤ y) : (a < b → x ≤ (1 + 9 * u) * y) ∧ (b < a → y ≤ (1 + 9 * u) * x) := by
  have hε := h.eps_nonneg
  have x9 := exp_eps_le2 h (k := 9 / 2) (by norm_num) (by norm_num at hu; linarith)
  have e4 : Real.exp (1 * eps u) * Real.exp (7 / 2 * eps u) = Real.exp (9 / 2 * eps u) := by
    rw [← Real.exp_add]; congr 1; ring
  have p1 := (Real.exp_pos (1 * eps u)).le
  have p2 := (Real.exp_pos (7 / 2 * eps u)).le
  constructor
  · intro hab
    calc x ≤ Real.exp (1 * eps u) * a := ha.le' hx
      _ ≤ Real.exp (1 * eps u) * b := mul_le_mul_of_nonneg_left hab.le p1
      _ ≤ Real.exp (1 * eps u) * (Real.exp (7 / 2 * eps u) * y) := mul_le_mul_of_nonneg_left (hb.le hy) p1
      _ = Real.exp (9 / 2 * eps u) * y := by rw [← e4]; ring
      _ ≤ _ := mul_le_mul_of_nonneg_right (by linarith) hy
  · intro hab
    calc y ≤ Real.exp (7 / 2 * eps u) * b := hb.le' hy
      _ ≤ Real.exp (7 / 2 * eps u) * a := mul_le_mul_of_nonneg_left hab.le p2
      _ ≤ Real.exp (7 / 2 * eps u) * (Real.exp (1 * eps u) * x) := mul_le_mul_of_nonneg_left (ha.le hx) p2
      _ = Real.exp (9 / 2 * eps u) * x := by rw [← e4]; ring
      _ ≤ _ := mul_le_mul_of_nonneg_right (by linarith) hx

/-- Circles that nearly touch have a short chord. -/
theorem cc_short (hu0 : 0 ≤ u) (hu : u ≤ 1 / 10 ^ 4) {r s d a : ℝ} (hr : 0 < r) (hs : 0 < s) (hd : 0 < d)
    (ha : a = (r ^ 2 - s ^ 2 + d ^ 2) / (2 * d)) (h1 : d ≤ r + s) (h2 : |r - s| ≤ d)
    (hn : r + s ≤ (1 + 9 * u) * d ∨ d ≤ (1 + 9 * u) * |r - s|) :
    r ^ 2 - a ^ 2 ≤ 20 * u * r * ((r ^ 2 + s ^ 2 + d ^ 2) / d) := by
  have had : 2 * d * a = r ^ 2 - s ^ 2 + d ^ 2 := by rw [ha]; field_simp
  have hprod : 4 * d ^ 2 * (r ^ 2 - a ^ 2) = ((r + s) ^ 2 - d ^ 2) * (d ^ 2 - (r - s) ^ 2) := by
    linear_combination (-(2 * d * a) - (r ^ 2 - s ^ 2 + d ^ 2)) * had
  have hrs : (r - s) ^ 2 ≤ d ^ 2 := by rw [← sq_abs]; exact pow_le_pow_left₀ (abs_nonneg _) h2 2
  have hds : d ^ 2 ≤ (r + s) ^ 2 := pow_le_pow_left₀ hd.le h1 2
  have hu2 : 18 * u + 81 * u ^ 2 ≤ 20 * u := by nlinarith
  have key : 4 * d ^ 2 * (r ^ 2 - a ^ 2) ≤ 20 * u * d ^ 2 * (4 * r * s) := by
    rw [hprod]
    rcases hn with hn | hn
    · have e1 : (r + s) ^ 2 ≤ ((1 + 9 * u) * d) ^ 2 := pow_le_pow_left₀ (by linarith) hn 2
      have e2 : (r + s) ^ 2 - d ^ 2 ≤ 20 * u * d ^ 2 := by
        have : ((1 + 9 * u) * d) ^ 2 = d ^ 2 + (18 * u + 81 * u ^ 2) * d ^ 2 := by ring
        have := mul_le_mul_of_nonneg_right hu2 (sq_nonneg d)
        linarith
      have e3 : d ^ 2 - (r - s) ^ 2 ≤ 4 * r * s := by nlinarith
      exact mul_le_mul e2 e3 (by linarith) (by positivity)
    · have e1 : d ^ 2 ≤ ((1 + 9 * u) * |r - s|) ^ 2 := pow_le_pow_left₀ hd.le hn 2
      have e2 : d ^ 2 - (r - s) ^ 2 ≤ 20 * u * d ^ 2 := by
        have h3 : ((1 + 9 * u) * |r - s|) ^ 2 = (r - s) ^ 2 + (18 * u + 81 * u ^ 2) * (r - s) ^ 2 := by
          rw [mul_pow, sq_abs]; ring
        have h4 := mul_le_mul hu2 hrs (sq_nonneg _) (by positivity : 0 ≤ 20 * u)
        linarith
      have e3 : (r + s) ^ 2 - d ^ 2 ≤ 4 * r * s := by nlinarith
      rw [mul_comm]
      exact mul_le_mul e2 e3 (by linarith) (by positivity)
  have hN : 2 * s ≤ (r ^ 2 + s ^ 2 + d ^ 2) / d := by
    rw [le_div_iff₀ hd]; nlinarith [sq_nonneg (s - d), sq_nonneg r]
  have k2 : r ^ 2 - a ^ 2 ≤ 20 * u * (r * s) := by
    have : 4 * d ^ 2 * (r ^ 2 - a ^ 2) ≤ 4 * d ^ 2 * (20 * u * (r * s)) := by
      rw [show 4 * d ^ 2 * (20 * u * (r * s)) = 20 * u * d ^ 2 * (4 * r * s) by ring]; exact key
    exact le_of_mul_le_mul_left this (by positivity)
  have k3 : 20 * u * r * (2 * s) ≤ 20 * u * r * ((r ^ 2 + s ^ 2 + d ^ 2) / d) := mul_le_mul_of_nonneg_left hN (by positivity)
  have k4 : 0 ≤ 20 * u * (r * s) := by positivity
  linarith

/-- Rounded squares of half chords: constants. -/
theorem cc_const1 {r M a a' D' : ℝ} (hu0 : 0 ≤ u) (hr : 0 < r) (hM : 2 * r ≤ M) (ha : |a| ≤ r) (ea : |a' - a| ≤ 15 * u * M) {k : ℝ}
    (ha' : |a'| ≤ k * r) (hk0 : 0 ≤ k) (hk : k ≤ 11 / 8)
    (eD : |D' - (r ^ 2 - a' ^ 2)| ≤ 201 / 100 * (u * (r ^ 2 + a' ^ 2))) :
    |D' - (r ^ 2 - a ^ 2)| ≤ 39 * (u * (r * M)) := by
  have h1 : |a' ^ 2 - a ^ 2| ≤ 15 * u * M * (19 / 8 * r) := by
    rw [show a' ^ 2 - a ^ 2 = (a' - a) * (a' + a) by ring, abs_mul]
    refine mul_le_mul ea ?_ (abs_nonneg _) (by nlinarith)
    refine (abs_add_le _ _).trans ?_
    have : k * r ≤ 11 / 8 * r := mul_le_mul_of_nonneg_right hk hr.le
    linarith
  have h2 : a' ^ 2 ≤ 2 * r ^ 2 := by
    rw [← sq_abs]
    have h3 : |a'| ≤ 11 / 8 * r := ha'.trans (mul_le_mul_of_nonneg_right hk hr.le)
    have := pow_le_pow_left₀ (abs_nonneg _) h3 2
    nlinarith
  have h3 : u * (r ^ 2 + a' ^ 2) ≤ 3 / 2 * (u * (r * M)) := by
    have h4 : r ^ 2 + a' ^ 2 ≤ 3 / 2 * (r * M) := by nlinarith
    have := mul_le_mul_of_nonneg_left h4 hu0
    linarith
  have h5 := abs_add_le (D' - (r ^ 2 - a' ^ 2)) (-(a' ^ 2 - a ^ 2))
  rw [show D' - (r ^ 2 - a' ^ 2) + -(a' ^ 2 - a ^ 2) = D' - (r ^ 2 - a ^ 2) by ring, abs_neg] at h5
  have h6 : 15 * u * M * (19 / 8 * r) = 285 / 8 * (u * (r * M)) := by ring
  have h7 : 0 ≤ u * (r * M) := by
    have : 0 ≤ M := by linarith
    positivity
  linarith

theorem cc_dist {x s N b : ℝ} (hs : 0 < s) (hx : 0 ≤ x) (hb : |x ^ 2 - s ^ 2| ≤ b * N) : |x - s| ≤ b * (N / s) := by
  rw [← mul_div_assoc, le_div_iff₀ hs]
  calc |x - s| * s ≤ |x - s| * (x + s) := mul_le_mul_of_nonneg_left (by linarith) (abs_nonneg _)
    _ = |x ^ 2 - s ^ 2| := by
      rw [show x ^ 2 - s ^ 2 = (x - s) * (x + s) by ring, abs_mul, abs_of_nonneg (by linarith : 0 ≤ x + s)]
    _ ≤ _ := hb

set_option maxHeartbeats 2000000 in
/-- C110: `circle.intersect_circle(other)` under rounding, for circles with centers `p`, `q` at the distance `d` and radii
`r`, `s`.

* It raises if the centers coincide, if `r + s < (1-u)⁵ d` (separate) or `d < (1-u)⁵ |r - s|` (contained).
* If the circles have the two common points `x`, `x'` and `40 u r (r² + s² + d²) / d` is less than the square of half their
  distance, it returns two points, and these are within `u (5 ‖p‖ + 75 r (r² + s² + d²) / (d · |x x'| / 2))` of `x`, `x'`
  (in one order or the other).
* Whenever it returns, both points are within `u (5 ‖p‖ + 45 r)` of the first circle and within
  `u (5 ‖p‖ + 55 (r² + s² + d²) / s)` of the other. -/
theorem C110_circle_intersect_circle (h : StdRounding u fl) (hu : u ≤ 1 / 10 ^ 4) {p q : E 2} {r s : ℝ} {C D : Circle ℝ}
    (hC : @Circle.new ℝ (rounded fl) (arr p) r = .ok C) (hD : @Circle.new ℝ (rounded fl) (arr q) s = .ok D) :
    (p = q → @Circle.intersectCircle ℝ (rounded fl) C D = .error (.valueError "The centres of the circles are coincident.")) ∧
    (p ≠ q → r + s < (1 - u) ^ 5 * dist p q → @Circle.intersectCircle ℝ (rounded fl) C D =
      .error (.valueError "The circles do not intersect. These circles are separate.")) ∧
    (p ≠ q → dist p q < (1 - u) ^ 5 * |r - s| → @Circle.intersectCircle ℝ (rounded fl) C D =
      .error (.valueError "The circles do not intersect. One circle is contained within the other.")) ∧
    (p ≠ q → ∀ x x' : E 2, Metric.sphere p r ∩ Metric.sphere q s = {x, x'} →
      40 * u * r * ((r ^ 2 + s ^ 2 + dist p q ^ 2) / dist p q) < (dist x x' / 2) ^ 2 →
      ∃ y y' : E 2, @Circle.intersectCircle ℝ (rounded fl) C D = .ok (arr y, arr y') ∧ ∀ B,
        B = u * (5 * ‖p‖ + 75 * (r * ((r ^ 2 + s ^ 2 + dist p q ^ 2) / dist p q) / (dist x x' / 2))) →
        dist y x ≤ B ∧ dist y' x' ≤ B ∨ dist y x' ≤ B ∧ dist y' x ≤ B) ∧
    (∀ res, @Circle.intersectCircle ℝ (rounded fl) C D = .ok res → ∃ y y' : E 2, res = (arr y, arr y') ∧ ∀ z, z = y ∨ z = y' →
      |dist z p - r| ≤ u * (5 * ‖p‖ + 45 * r) ∧
      |dist z q - s| ≤ u * (5 * ‖p‖ + 55 * ((r ^ 2 + s ^ 2 + dist p q ^ 2) / s))) := by
  have hu0 := h.nonneg
  obtain ⟨hr, rfl⟩ := circle_new_rd hC
  obtain ⟨hs, rfl⟩ := circle_new_rd hD
  obtain ⟨d', hd', rd⟩ := distancePoint_rp h p q
  rw [show (((2 : ℕ) : ℝ) + 5) / 2 = 7 / 2 by norm_num] at rd
  have hcoin : p = q → @Circle.intersectCircle ℝ (rounded fl) ⟨arr p, r⟩ ⟨arr q, s⟩ =
      .error (.valueError "The centres of the circles are coincident.") := by
    intro hpq
    have h0 : d' = 0 := rd.eq_zero.mpr (by rw [hpq, dist_self])
    simp only [Circle.intersectCircle, hd', ok_bind, eq_rd, zero_rd, h0, decide_true, if_true]
  refine ⟨hcoin, ?_⟩
  by_cases hpq : p = q
  · refine ⟨fun hn => absurd hpq hn, fun hn => absurd hpq hn, fun hn => absurd hpq hn, fun res hres => ?_⟩
    rw [hcoin hpq] at hres; cases hres
  obtain ⟨d, hdd⟩ : ∃ d, d = dist p q := ⟨_, rfl⟩
  rw [← hdd] at rd ⊢
  have hd : 0 < d := by rw [hdd]; exact dist_pos.mpr hpq
  have hd'0 : ¬ d' = 0 := fun h0 => hd.ne' (rd.eq_zero.mp h0)
  have rs : RP (eps u) 1 (fl (r + s)) (r + s) := h.rp _
  have rm : RP (eps u) 1 |fl (r - s)| |r - s| := (h.rp _).abs
  obtain ⟨N, hN⟩ : ∃ N, N = r ^ 2 + s ^ 2 + d ^ 2 := ⟨_, rfl⟩
  obtain ⟨M, hM⟩ : ∃ M, M = N / d := ⟨_, rfl⟩
  rw [← hN, ← hM]
  have hN0 : 0 ≤ N := by rw [hN]; positivity
  have hMr : 2 * r ≤ M := by rw [hM, le_div_iff₀ hd, hN]; nlinarith [sq_nonneg (r - d), sq_nonneg s]
  have hdM : d * M = N := by rw [hM]; field_simp
  have ea := cc_along h hu (r := r) (s := s) hd rd hN
  obtain ⟨a, ha⟩ : ∃ a, a = (r ^ 2 - s ^ 2 + d ^ 2) / (2 * d) := ⟨_, rfl⟩
  obtain ⟨a', ha'⟩ : ∃ a', a' = fl (fl (fl (fl (r * r) - fl (s * s)) + fl (d' * d')) / fl (2 * d')) := ⟨_, rfl⟩
  rw [← ha, ← ha', ← hM] at ea
  obtain ⟨D', hD'⟩ : ∃ D', D' = fl (fl (r * r) - fl (a' * a')) := ⟨_, rfl⟩
  have eD := cc_chord h hu r a'
  rw [← hD'] at eD
  have had : 2 * d * a = r ^ 2 - s ^ 2 + d ^ 2 := by rw [ha]; field_simp
  obtain ⟨e, he⟩ : ∃ e, e = d⁻¹ • (q - p) := ⟨_, rfl⟩
  have hen : ‖e‖ = 1 := by
    rw [he, norm_smul, norm_inv, Real.norm_eq_abs, abs_of_pos hd, ← dist_eq_norm, dist_comm, ← hdd, inv_mul_cancel₀ hd.ne']
  have hqp : q = p + d • e := by rw [he, smul_smul, mul_inv_cancel₀ hd.ne', one_smul]; abel
  -- the computation
  have hval : ¬ fl (r + s) < d' → ¬ d' < |fl (r - s)| → 0 ≤ D' → |a'| ≤ 101 / 100 * r ∧ ∃ y y' : E 2,
      @Circle.intersectCircle ℝ (rounded fl) ⟨arr p, r⟩ ⟨arr q, s⟩ = .ok (arr y, arr y') ∧
      ‖y - (p + (a' • e + (1 * √D') • turn e))‖ ≤ u * (5 * ‖p‖ + 40 * r) ∧
      ‖y' - (p + (a' • e + ((-1) * √D') • turn e))‖ ≤ u * (5 * ‖p‖ + 40 * r) := by
    intro h1 h2 h0
    have ha1 : |a'| ≤ 101 / 100 * r := cc_along_le h hu hr (by rw [← hD']; exact h0)
    have hs1 : √D' ≤ 101 / 100 * r := by
      rw [Real.sqrt_le_left (by positivity)]
      have e1 := (abs_le.mp eD).2
      have e2 : u * (r ^ 2 + a' ^ 2) ≤ 1 / 10 ^ 4 * (r ^ 2 + a' ^ 2) := mul_le_mul_of_nonneg_right hu (by positivity)
      norm_num at e2
      nlinarith [sq_nonneg a', sq_nonneg r]
    obtain ⟨v, hv, cv⟩ := from_crp h p q
    obtain ⟨m0, hm0, hm0i⟩ := smul_rd (fl := fl) a' v
    obtain ⟨m, hm, hmi⟩ := sdiv_rd (fl := fl) d' m0
    obtain ⟨mid, hmid, hmidi⟩ := vadd_rd (fl := fl) p m
    have hmi' : ∀ i, m i = fl (fl (a' * v i) / d') := fun i => by rw [hmi, hm0i]
    have k1 := cc_point h hu hd hdd rd hr ha1 (Real.sqrt_nonneg D') hs1 cv hmi' hmidi 1 (by simp)
    have k2 := cc_point h hu hd hdd rd hr ha1 (Real.sqrt_nonneg D') hs1 cv hmi' hmidi (-1) (by simp)
    rw [← he] at k1 k2
    refine ⟨ha1, _, _, ?_, k1, k2⟩
    have hn1 : ∀ X Y : ℝ, @new1D ℝ (rounded fl) [X, Y] = .ok [X, Y] := fun X Y => by
      rw [← arr_vec2, new1D_rd]
    rw [arr_two mid] at hmid
    simp only [Circle.intersectCircle, hd', ok_bind, eq_rd, zero_rd, hd'0, decide_false, Bool.false_eq_true, if_false, lt_rd, add_rd,
      h1, sub_rd, abs_rd, h2, sq_rd, mul_rd, div_rd, two_rd, ← ha', ← hD', mathSqrt, not_lt.mpr h0, sqrt_rd, hv, hm0, hm, hmid]
    simp only [arr_two p, arr_two q, hn1, ok_bind, pure_ok, ofInt_rd, Int.cast_neg, Int.cast_one, arr_vec2]
  refine ⟨fun _ hsep => ?_, fun _ hcont => ?_, fun _ x x' hset hbig => ?_, fun res hres => ?_⟩
  · have h1 := rp_lt h rs rd (by positivity) hsep
    simp only [Circle.intersectCircle, hd', ok_bind, eq_rd, zero_rd, hd'0, decide_false, Bool.false_eq_true, if_false, lt_rd, add_rd,
      h1, decide_true, if_true]
  · have h2 := rp_lt' h rm rd (abs_nonneg _) hd.le hcont
    have h1 : ¬ fl (r + s) < d' := by
      intro h1
      have hle : |r - s| ≤ r + s := by rw [abs_le]; constructor <;> linarith
      have := rp_lt' h rs rd (by positivity) hd.le (hcont.trans_le
        (mul_le_mul_of_nonneg_left hle (by have := h.lt_one; have : 0 ≤ 1 - u := by linarith
                                           positivity)))
      exact lt_asymm h1 this
    simp only [Circle.intersectCircle, hd', ok_bind, eq_rd, zero_rd, hd'0, decide_false, Bool.false_eq_true, if_false, lt_rd, add_rd,
      h1, sub_rd, abs_rd, h2, decide_true, if_true]
  · obtain ⟨hDp, hle1, hle2, hex⟩ := cc_exact (p := p) (q := q) hr hs hpq hdd ha (by rw [hset]; exact ⟨x, by simp⟩)
    rw [← he] at hex
    obtain ⟨Dx, hDx⟩ : ∃ Dx, Dx = r ^ 2 - a ^ 2 := ⟨_, rfl⟩
    rw [← hDx] at hDp hex
    have hpair := hex.symm.trans hset
    have hxx : ∀ X X' : E 2, X = p + (a • e + (1 * √Dx) • turn e) → X' = p + (a • e + ((-1) * √Dx) • turn e) →
        dist X X' / 2 = √Dx := by
      rintro X X' rfl rfl
      rw [dist_eq_norm, show p + (a • e + (1 * √Dx) • turn e) - (p + (a • e + ((-1) * √Dx) • turn e)) = (2 * √Dx) • turn e by module,
        norm_smul, norm_turn, hen, mul_one, Real.norm_eq_abs, abs_of_nonneg (by positivity)]
      ring
    have hρ : dist x x' / 2 = √Dx := by
      rcases Set.pair_eq_pair_iff.mp hpair with ⟨g1, g2⟩ | ⟨g1, g2⟩
      · exact hxx x x' g1.symm g2.symm
      · rw [dist_comm]; exact hxx x' x g1.symm g2.symm
    rw [hρ, Real.sq_sqrt hDp] at hbig
    have har : |a| ≤ r := by
      refine le_of_sq_le_sq ?_ hr.le
      rw [sq_abs]; linarith
    have hM0 : 0 < M := by linarith
    have huM : 40 * (u * M) ≤ r := by
      have h1 : 40 * u * r * M ≤ r ^ 2 := by linarith [sq_nonneg a]
      have h2 : r * (40 * (u * M)) ≤ r * r := by rw [← pow_two]; linarith
      exact le_of_mul_le_mul_left h2 hr
    have ha1 : |a'| ≤ 11 / 8 * r := by
      have := abs_add_le (a' - a) a
      rw [sub_add_cancel] at this
      linarith
    have eDD := cc_const1 hu0 hr hMr har ea ha1 (by norm_num) le_rfl eD
    rw [← hDx] at eDD
    have hu_rM : 0 ≤ u * (r * M) := by positivity
    have hD'0 : 0 ≤ D' := by have := (abs_le.mp eDD).1; linarith
    have hDpos : 0 < Dx := by linarith
    have hshort : ¬ (r + s ≤ (1 + 9 * u) * d ∨ d ≤ (1 + 9 * u) * |r - s|) := by
      intro hn
      have := cc_short hu0 hu hr hs hd ha hle1 hle2 hn
      rw [← hN, ← hM, ← hDx] at this
      linarith
    rw [not_or] at hshort
    obtain ⟨-, y, y', hy, ey, ey'⟩ := hval (fun hlt => hshort.1 ((rp_gap h hu rs rd (by positivity) hd.le).1 hlt))
      (fun hlt => hshort.2 ((rp_gap h hu rm rd (abs_nonneg _) hd.le).2 hlt)) hD'0
    refine ⟨y, y', hy, ?_⟩
    rintro B rfl
    rw [hρ]
    have hsq := sqrt_diff hDpos hD'0 eDD
    have hρ0 : 0 < √Dx := Real.sqrt_pos.mpr hDpos
    have hρr : √Dx ≤ r := by rw [Real.sqrt_le_left hr.le]; linarith [sq_nonneg a]
    obtain ⟨T, hT⟩ : ∃ T, T = r * M / √Dx := ⟨_, rfl⟩
    have hTM : M ≤ T := by rw [hT, le_div_iff₀ hρ0]; nlinarith
    have hB : u * (5 * ‖p‖ + 40 * r) + 15 * u * M + 39 * (u * (r * M)) / √Dx ≤ u * (5 * ‖p‖ + 75 * T) := by
      have e1 : 39 * (u * (r * M)) / √Dx = 39 * (u * T) := by rw [hT]; ring
      have e2 := mul_le_mul_of_nonneg_left hTM hu0
      have e3 := mul_le_mul_of_nonneg_left hMr hu0
      rw [e1]
      have e4 : 0 ≤ u * T := by have : 0 ≤ T := by linarith
                                positivity
      linarith
    rw [← hT]
    have key : ∀ (v : E 2) (σ : ℝ), |σ| = 1 → ‖v - (p + (a' • e + (σ * √D') • turn e))‖ ≤ u * (5 * ‖p‖ + 40 * r) →
        dist v (p + (a • e + (σ * √Dx) • turn e)) ≤ u * (5 * ‖p‖ + 75 * T) := by
      intro v σ hσ hv
      have e1 : v - (p + (a • e + (σ * √Dx) • turn e)) =
          (v - (p + (a' • e + (σ * √D') • turn e))) + (a' - a) • e + (σ * (√D' - √Dx)) • turn e := by module
      rw [dist_eq_norm, e1]
      refine (norm_add₃_le).trans ?_
      rw [norm_smul, norm_smul, norm_turn, hen, mul_one, mul_one, Real.norm_eq_abs, Real.norm_eq_abs, abs_mul, hσ, one_mul]
      linarith
    have k1 := key y 1 (by simp) ey
    have k2 := key y' (-1) (by simp) ey'
    rcases Set.pair_eq_pair_iff.mp hpair with ⟨g1, g2⟩ | ⟨g1, g2⟩
    · left; rw [← g1, ← g2]; exact ⟨k1, k2⟩
    · right; rw [← g1, ← g2]; exact ⟨k1, k2⟩
  · have h1 : ¬ fl (r + s) < d' := by
      intro h1
      simp only [Circle.intersectCircle, hd', ok_bind, eq_rd, zero_rd, hd'0, decide_false, Bool.false_eq_true, if_false, lt_rd, add_rd,
        h1, decide_true, if_true] at hres
      cases hres
    have h2 : ¬ d' < |fl (r - s)| := by
      intro h2
      simp only [Circle.intersectCircle, hd', ok_bind, eq_rd, zero_rd, hd'0, decide_false, Bool.false_eq_true, if_false, lt_rd, add_rd,
        h1, sub_rd, abs_rd, h2, decide_true, if_true] at hres
      cases hres
    have h0 : 0 ≤ D' := by
      by_contra hcon
      simp only [Circle.intersectCircle, hd', ok_bind, eq_rd, zero_rd, hd'0, decide_false, Bool.false_eq_true, if_false, lt_rd, add_rd,
        h1, sub_rd, abs_rd, h2, sq_rd, mul_rd, div_rd, two_rd, ← ha', ← hD', mathSqrt, not_le.mp hcon, decide_true, if_true,
        error_bind] at hres
      cases hres
    obtain ⟨ha1, y, y', hy, ey, ey'⟩ := hval h1 h2 h0
    rw [hy] at hres
    refine ⟨y, y', (Except.ok.inj hres).symm, ?_⟩
    have hDr : |D' - (r ^ 2 - a' ^ 2)| ≤ 41 / 10 * u * r ^ 2 := by
      refine eD.trans ?_
      have h3 : a' ^ 2 ≤ 10202 / 10000 * r ^ 2 := by
        rw [← sq_abs]
        have := pow_le_pow_left₀ (abs_nonneg _) ha1 2
        nlinarith
      have := mul_le_mul_of_nonneg_left h3 hu0
      have := mul_nonneg hu0 (sq_nonneg r)
      linarith
    have key : ∀ (z : E 2) (σ : ℝ), σ ^ 2 = 1 → ‖z - (p + (a' • e + (σ * √D') • turn e))‖ ≤ u * (5 * ‖p‖ + 40 * r) →
        |dist z p - r| ≤ u * (5 * ‖p‖ + 45 * r) ∧ |dist z q - s| ≤ u * (5 * ‖p‖ + 55 * (N / s)) := by
      intro z σ hσ hz
      obtain ⟨x, hx⟩ : ∃ x, x = p + (a' • e + (σ * √D') • turn e) := ⟨_, rfl⟩
      rw [← hx, ← dist_eq_norm] at hz
      have hσD : (σ * √D') ^ 2 = D' := by rw [mul_pow, hσ, one_mul, Real.sq_sqrt h0]
      have d1 : dist x p ^ 2 = a' ^ 2 + D' := by
        rw [hx, dist_eq_norm, add_sub_cancel_left, norm_frame hen, hσD]
      have d2 : dist x q ^ 2 = (a' - d) ^ 2 + D' := by
        have : x - q = (a' - d) • e + (σ * √D') • turn e := by rw [hx, hqp]; module
        rw [dist_eq_norm, this, norm_frame hen, hσD]
      have f1 : |dist x p - r| ≤ 41 / 10 * u * (r ^ 2 / r) := by
        refine cc_dist hr dist_nonneg ?_
        rw [d1, show a' ^ 2 + D' - r ^ 2 = D' - (r ^ 2 - a' ^ 2) by ring]; exact hDr
      have f2 : |dist x q - s| ≤ 35 * u * (N / s) := by
        refine cc_dist hs dist_nonneg ?_
        rw [d2, show (a' - d) ^ 2 + D' - s ^ 2 = (D' - (r ^ 2 - a' ^ 2)) + (-(2 * d * (a' - a))) by linear_combination -had]
        refine (abs_add_le _ _).trans ?_
        rw [abs_neg, abs_mul, abs_of_pos (by positivity : 0 < 2 * d)]
        have g1 := mul_le_mul_of_nonneg_left ea (by positivity : 0 ≤ 2 * d)
        have g2 : 2 * d * (15 * u * M) = 30 * u * N := by rw [← hdM]; ring
        have g3 : u * r ^ 2 ≤ u * N := mul_le_mul_of_nonneg_left (by rw [hN]; nlinarith [sq_nonneg s, sq_nonneg d]) hu0
        have g4 := mul_nonneg hu0 hN0
        linarith
      have hrr : r ^ 2 / r = r := by field_simp
      rw [hrr] at f1
      have g1 := abs_dist_sub_le z x p
      have g2 := abs_dist_sub_le z x q
      have t1 := abs_add_le (dist z p - dist x p) (dist x p - r)
      have t2 := abs_add_le (dist z q - dist x q) (dist x q - s)
      rw [sub_add_sub_cancel] at t1 t2
      have hNs : 2 * r ≤ N / s := by rw [le_div_iff₀ hs, hN]; nlinarith [sq_nonneg (r - s), sq_nonneg d]
      have hur := mul_nonneg hu0 hr.le
      have hNs' := mul_le_mul_of_nonneg_left hNs hu0
      constructor
      · linarith
      · linarith
    rintro z (rfl | rfl)
    · exact key _ _ (by norm_num) ey
    · exact key _ _ (by norm_num) ey'

/-- The hypotheses are met in binary64: the circles of radius 5 with centers `(0, 0)` and `(6, 0)` meet in `(3, 4)` and `(3, -4)`;
they are separate from (inside) the circle of radius 1 (20) around `(6, 0)` (`(0, 1)`). -/
example : vec2 0 0 ≠ vec2 6 0 ∧ Metric.sphere (vec2 0 0) 5 ∩ Metric.sphere (vec2 6 0) 5 = {vec2 3 4, vec2 3 (-4)} ∧
    40 * (2 : ℝ)⁻¹ ^ 53 * 5 * ((5 ^ 2 + 5 ^ 2 + dist (vec2 0 0) (vec2 6 0) ^ 2) / dist (vec2 0 0) (vec2 6 0)) <
      (dist (vec2 3 4) (vec2 3 (-4)) / 2) ^ 2 ∧
    (4 : ℝ) + 1 < (1 - (2 : ℝ)⁻¹ ^ 53) ^ 5 * dist (vec2 0 0) (vec2 6 0) ∧
    dist (vec2 0 0) (vec2 6 0) < (1 - (2 : ℝ)⁻¹ ^ 53) ^ 5 * |(5 : ℝ) - 20| := by
  have d1 : dist (vec2 0 0) (vec2 6 0) = 6 := by
    rw [dist_eq_norm, ← sq_eq_sq₀ (norm_nonneg _) (by norm_num), norm_sq2]; simp [vec2]
  have d2 : dist (vec2 3 4) (vec2 3 (-4)) = 8 := by
    rw [dist_eq_norm, ← sq_eq_sq₀ (norm_nonneg _) (by norm_num), norm_sq2]; simp [vec2]; norm_num
  rw [d1, d2]
  refine ⟨fun h0 => ?_, ?_, by norm_num, by norm_num, by norm_num [abs_of_neg]⟩
  · rw [h0, dist_self] at d1; norm_num at d1
  · ext x
    simp only [Set.mem_inter_iff, Metric.mem_sphere, Set.mem_insert_iff, Set.mem_singleton_iff]
    have e1 : dist x (vec2 0 0) = 5 ↔ x 0 ^ 2 + x 1 ^ 2 = 25 := by
      rw [dist_eq_norm, ← sq_eq_sq₀ (norm_nonneg _) (by norm_num), norm_sq2]; simp [vec2]; norm_num
    have e2 : dist x (vec2 6 0) = 5 ↔ (x 0 - 6) ^ 2 + x 1 ^ 2 = 25 := by
      rw [dist_eq_norm, ← sq_eq_sq₀ (norm_nonneg _) (by norm_num), norm_sq2]; simp [vec2]; norm_num
    rw [e1, e2]
    constructor
    · rintro ⟨h1, h2⟩
      have h3 : x 0 = 3 := by linarith
      rw [h3] at h1
      have h4 : (x 1 - 4) * (x 1 + 4) = 0 := by linarith
      rcases mul_eq_zero.mp h4 with h5 | h5
      · left; ext i; fin_cases i
        · exact h3
        · simp [vec2]; linarith
      · right; ext i; fin_cases i
        · exact h3
        · simp [vec2]; linarith
    · rintro (rfl | rfl) <;> simp [vec2] <;> norm_num

end SkSpatial
