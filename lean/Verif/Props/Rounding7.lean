import Verif.Props.Rounding6
/-! # C89: projecting and then asking `contains_point`, under rounding -/

namespace SkSpatial
open StdRounding

variable {u : ℝ} {fl : Arith} {n : ℕ}

theorem exp_eps_le2 (h : StdRounding u fl) {k : ℝ} (hk : 1 ≤ k) (hku : 2 * k * u ≤ 1) :
    Real.exp (k * eps u) - 1 ≤ 2 * k * u := by
  have hu := h.nonneg
  have h1 := h.lt_one
  rw [h.exp_eps]
  have hB := one_add_mul_self_le_rpow_one_add (show (-1 : ℝ) ≤ -u by linarith) hk
  rw [show 1 + -u = 1 - u by ring] at hB
  have hku0 : 0 ≤ k * u := by positivity
  have hp : 0 < 1 + k * -u := by linarith
  have h2 : ((1 - u) ^ k)⁻¹ ≤ (1 + k * -u)⁻¹ := by
    apply inv_anti₀ hp hB
  have h3 : (1 + k * -u)⁻¹ ≤ 1 + 2 * k * u := by
    rw [inv_le_iff_one_le_mul₀ hp]
    nlinarith
  linarith

/-! ### The exact foot -/

theorem foot_inner (p v x : E n) (hv : v ≠ 0) : inner ℝ (x - foot p v x) v = (0 : ℝ) := by
  have : ‖v‖ ^ 2 ≠ 0 := by have := norm_ne_zero_iff.mpr hv; positivity
  rw [foot, sub_add_eq_sub_sub, inner_sub_left, real_inner_smul_left, real_inner_self_eq_norm_sq,
    div_mul_cancel₀ _ this, sub_self]

theorem foot_dist_le (p v x : E n) (hv : v ≠ 0) (t : ℝ) : dist x (foot p v x) ≤ dist x (p + t • v) := by
  rw [dist_eq_norm, dist_eq_norm]
  have e : x - (p + t • v) = (x - foot p v x) + (inner ℝ (x - p) v / ‖v‖ ^ 2 - t) • v := by
    rw [foot, sub_smul]; abel
  have h0 : inner ℝ (x - foot p v x) ((inner ℝ (x - p) v / ‖v‖ ^ 2 - t) • v) = (0 : ℝ) := by
    rw [real_inner_smul_right, foot_inner p v x hv, mul_zero]
  have := norm_add_sq_real (x - foot p v x) ((inner ℝ (x - p) v / ‖v‖ ^ 2 - t) • v)
  rw [← e, h0] at this
  refine le_of_sq_le_sq ?_ (norm_nonneg _)
  nlinarith [sq_nonneg ‖(inner ℝ (x - p) v / ‖v‖ ^ 2 - t) • v‖]
where
  le_of_sq_le_sq {a b : ℝ} (h : a ^ 2 ≤ b ^ 2) (hb : 0 ≤ b) : a ≤ b := by
    exact le_of_abs_le ((sq_le_sq.mp h).trans_eq (abs_of_nonneg hb))

theorem foot_near (p v x : E n) (hv : v ≠ 0) : dist (foot p v x) p ≤ dist x p := by
  rw [dist_eq_norm, foot, add_sub_cancel_left, norm_smul, dist_eq_norm, Real.norm_eq_abs, abs_div]
  have hv0 : 0 < ‖v‖ := norm_pos_iff.mpr hv
  rw [abs_of_pos (by positivity : (0:ℝ) < ‖v‖ ^ 2), div_mul_eq_mul_div, div_le_iff₀ (by positivity)]
  have := abs_real_inner_le_norm (x - p) v
  nlinarith

theorem line_const {u P W η e d N K s : ℝ} (hu : 0 ≤ u) (hP : 0 ≤ P) (hW : 0 ≤ W) (hη : 0 ≤ η) (hN : 12 ≤ N)
    (hNu : N * u ≤ 1 / 10) (h1 : η ≤ 2 * u * P + N * u * W) (h2 : e ≤ η + (2 * u * P + N * u * (W + η)))
    (he : 0 ≤ e) (hK : K ≤ 1 + 1 / 10) (hd : d ≤ K * e)
    (hs : 5 * u * P + 5 / 2 * N * u * W ≤ s) : (1 + u) * d ≤ s := by
  have hu1 : u ≤ 1 / 100 := by nlinarith
  obtain ⟨a, ha⟩ : ∃ a, a = u * P := ⟨_, rfl⟩
  obtain ⟨b, hb⟩ : ∃ b, b = N * u * W := ⟨_, rfl⟩
  have ha0 : 0 ≤ a := by rw [ha]; positivity
  have hb0 : 0 ≤ b := by rw [hb]; positivity
  have e1 : η ≤ 2 * a + b := by rw [ha, hb]; linarith
  have e2 : N * u * η ≤ 1 / 10 * η := mul_le_mul_of_nonneg_right hNu hη
  have e3 : e ≤ 21 / 10 * (2 * a + b) := by
    have : N * u * (W + η) = b + N * u * η := by rw [hb]; ring
    have : 2 * u * P = 2 * a := by rw [ha]; ring
    linarith
  have e4 : d ≤ 11 / 10 * e := hd.trans (mul_le_mul_of_nonneg_right (by linarith) he)
  have e5 : d ≤ 231 / 100 * (2 * a + b) := by linarith
  have e6 : (1 + u) * d ≤ (1 + u) * (231 / 100 * (2 * a + b)) := mul_le_mul_of_nonneg_left e5 (by linarith)
  have e7 : u * (231 / 100 * (2 * a + b)) ≤ 1 / 100 * (231 / 100 * (2 * a + b)) :=
    mul_le_mul_of_nonneg_right hu1 (by positivity)
  have e8 : 5 * u * P + 5 / 2 * N * u * W = 5 / 2 * (2 * a + b) := by rw [ha, hb]; ring
  linarith

/-- C89: under rounding, `line.contains_point(line.project_point(x), rel_tol=t, abs_tol=s)` is `True` as soon as
`abs_tol` is at least `u (5 ‖p‖ + (10 n + 30) dist x p)`, where `p` is the line's point; with the default
`abs_tol = 0` it can be `False` (`C88_line_projection_not_contained`). -/
theorem C89_line [NeZero n] (h : StdRounding u fl) (hu : (4 * n + 12) * u ≤ 1 / 10) {p v : E n} {L : Line ℝ}
    (hL : @Line.new ℝ (rounded fl) (arr p) (arr v) = .ok L) (x : E n) {t s : ℝ} (ht : 0 ≤ t) (ht1 : t ≤ 1 / 4)
    (hs : u * (5 * ‖p‖ + (10 * n + 30) * dist x p) ≤ s) :
    ∃ q : E n, @Line.projectPoint ℝ (rounded fl) L (arr x) = .ok (arr q) ∧
      @Line.containsPoint ℝ (rounded fl) ⟨t, s⟩ L (arr q) = .ok true := by
  have hu0 := h.nonneg
  have hn1 : (1 : ℝ) ≤ n := by exact_mod_cast NeZero.one_le
  have hu1 : u ≤ 1 / 100 := by nlinarith
  have hv : v ≠ 0 := by
    intro hv
    rw [((C73_constructors h (by linarith) p v).2 hv).1] at hL
    cases hL
  rw [((C73_constructors h (by linarith) p v).1 hv).1] at hL
  obtain rfl : Line.mk (arr p) (arr v) = L := by simpa using hL
  obtain ⟨q, hq, hqe⟩ := projectPoint_rd h p v x hv
  refine ⟨q, hq, ?_⟩
  obtain ⟨q', hq', hqe'⟩ := projectPoint_rd h p v q hv
  obtain ⟨d, hd, hr⟩ := distancePoint_rp h q' q
  have hs0 : 0 ≤ s := le_trans (by positivity) hs
  obtain ⟨b, hb, hb1, -⟩ := isclose_zero_abs_rd h (by linarith) (d := d) ht ht1 hs0
  have hbt : b = true := by
    apply hb1
    have hd0 : 0 ≤ d := hr.nonneg dist_nonneg
    rw [abs_of_nonneg hd0]
    have c1 := exp_eps_le2 h (k := 1) le_rfl (by linarith)
    have c2 := exp_eps_le2 h (k := 2 * n + 6) (by linarith) (by nlinarith)
    have c3 := exp_eps_le2 h (k := (n + 5) / 2) (by linarith) (by nlinarith)
    rw [one_mul] at c1
    have hP := norm_nonneg p
    have hW : 0 ≤ dist x p := dist_nonneg
    have hle := hr.le dist_nonneg
    have g1 : ‖q - foot p v x‖ ≤ 2 * u * ‖p‖ + (4 * n + 12) * u * dist x p := by
      refine hqe.trans (add_le_add (mul_le_mul_of_nonneg_right (by linarith) hP)
        (mul_le_mul_of_nonneg_right (by linarith) hW))
    have g2 : dist q p ≤ dist x p + ‖q - foot p v x‖ := by
      have := dist_triangle q (foot p v x) p
      have := foot_near p v x hv
      rw [← dist_eq_norm]; linarith
    have g3 : dist q' q ≤ ‖q - foot p v x‖ + (2 * u * ‖p‖ + (4 * n + 12) * u * (dist x p + ‖q - foot p v x‖)) := by
      have a1 := dist_triangle q' (foot p v q) q
      have a2 := foot_dist_le p v q hv (inner ℝ (x - p) v / ‖v‖ ^ 2)
      have a3 : p + (inner ℝ (x - p) v / ‖v‖ ^ 2) • v = foot p v x := rfl
      rw [a3] at a2
      have a4 : ‖q' - foot p v q‖ ≤ 2 * u * ‖p‖ + (4 * n + 12) * u * (dist x p + ‖q - foot p v x‖) := by
        refine hqe'.trans (add_le_add (mul_le_mul_of_nonneg_right (by linarith) hP) ?_)
        exact mul_le_mul (by linarith) g2 dist_nonneg (by positivity)
      simp only [← dist_eq_norm] at a4 ⊢
      rw [dist_comm (foot p v q) q] at a1
      linarith
    refine line_const (N := 4 * n + 12) hu0 hP hW (norm_nonneg _) (by linarith) hu g1 g3 dist_nonneg
      (K := Real.exp ((n + 5) / 2 * eps u)) ?_ hle ?_
    · nlinarith
    · refine le_trans (le_of_eq (by ring)) hs
  simp only [Line.containsPoint, containsPointFn, Line.distancePoint, wrapped_rd, hq', ok_bind, hd, hb, hbt]

/-! ### Planes -/

theorem planeProject_eq [NeZero n] (p m x : E n) :
    @Plane.projectPoint ℝ (rounded fl) ⟨arr p, arr m⟩ (arr x) =
      @Line.projectPoint ℝ (rounded fl) ⟨arr x, arr m⟩ (arr p) := by
  simp only [Plane.projectPoint, Line.projectPoint, new1D_rd, ok_bind]

theorem signedDist_foot (p m x : E n) (hm : m ≠ 0) : signedDist p m (foot x m p) = 0 := by
  rw [signedDist, ← neg_sub, inner_neg_left, foot_inner x m p hm, neg_zero, zero_div]

theorem signedDist_lip (p m x y : E n) : |signedDist p m x - signedDist p m y| ≤ dist x y := by
  rw [signedDist, signedDist, ← sub_div, ← inner_sub_left, sub_sub_sub_cancel_right, abs_div, abs_norm, dist_eq_norm]
  exact div_le_of_le_mul₀ (norm_nonneg _) (norm_nonneg _) (abs_real_inner_le_norm _ _)

theorem plane_const {u X W η N s b d : ℝ} (hu : 0 ≤ u) (hX : 0 ≤ X) (hW : 0 ≤ W) (hη : 0 ≤ η) (hN : 12 ≤ N)
    (hNu : N * u ≤ 1 / 10) (h1 : η ≤ 2 * u * X + N * u * W) (hb : b ≤ 3 / 4 * N * u * (W + η)) (hd : d ≤ η)
    (hs : 3 * u * X + 2 * N * u * W ≤ s) : (1 + u) * (d + b) ≤ s := by
  have hu1 : u ≤ 1 / 100 := by nlinarith
  obtain ⟨a, ha⟩ : ∃ a, a = u * X := ⟨_, rfl⟩
  obtain ⟨c, hc⟩ : ∃ c, c = N * u * W := ⟨_, rfl⟩
  have ha0 : 0 ≤ a := by rw [ha]; positivity
  have hc0 : 0 ≤ c := by rw [hc]; positivity
  have e1 : η ≤ 2 * a + c := by rw [ha, hc]; linarith
  have e2 : N * u * η ≤ 1 / 10 * η := mul_le_mul_of_nonneg_right hNu hη
  have e3 : b ≤ 3 / 4 * c + 3 / 40 * η := by
    have : 3 / 4 * N * u * (W + η) = 3 / 4 * c + 3 / 4 * (N * u * η) := by rw [hc]; ring
    linarith
  have e4 : d + b ≤ 43 / 20 * a + 73 / 40 * c := by linarith
  have e5 : (1 + u) * (d + b) ≤ (1 + u) * (43 / 20 * a + 73 / 40 * c) := mul_le_mul_of_nonneg_left e4 (by linarith)
  have e6 : u * (43 / 20 * a + 73 / 40 * c) ≤ 1 / 100 * (43 / 20 * a + 73 / 40 * c) :=
    mul_le_mul_of_nonneg_right hu1 (by positivity)
  have e7 : 3 * u * X + 2 * N * u * W = 3 * a + 2 * c := by rw [ha, hc]; ring
  linarith

/-- C89: under rounding, `plane.contains_point(plane.project_point(x), rel_tol=t, abs_tol=s)` is `True` as soon as
`abs_tol` is at least `u (3 ‖x‖ + (8 n + 24) dist x p)`, where `p` is the plane's point; with the default
`abs_tol = 0` it can be `False` (`C88_plane_projection_not_contained`). -/
theorem C89_plane [NeZero n] (h : StdRounding u fl) (hu : (4 * n + 12) * u ≤ 1 / 10) {p m : E n} {P : Plane ℝ}
    (hP : @Plane.new ℝ (rounded fl) (arr p) (arr m) = .ok P) (x : E n) {t s : ℝ} (ht : 0 ≤ t) (ht1 : t ≤ 1 / 4)
    (hs : u * (3 * ‖x‖ + (8 * n + 24) * dist x p) ≤ s) :
    ∃ q : E n, @Plane.projectPoint ℝ (rounded fl) P (arr x) = .ok (arr q) ∧
      @Plane.containsPoint ℝ (rounded fl) ⟨t, s⟩ P (arr q) = .ok true := by
  have hu0 := h.nonneg
  have hn1 : (1 : ℝ) ≤ n := by exact_mod_cast NeZero.one_le
  have hu1 : u ≤ 1 / 100 := by nlinarith
  have hm : m ≠ 0 := by
    intro hm
    rw [((C73_constructors h (by linarith) p m).2 hm).2] at hP
    cases hP
  rw [((C73_constructors h (by linarith) p m).1 hm).2] at hP
  obtain rfl : Plane.mk (arr p) (arr m) = P := by simpa using hP
  obtain ⟨q, hq, hqe⟩ := projectPoint_rd h x m p hm
  have hs0 : 0 ≤ s := le_trans (by positivity) hs
  obtain ⟨b, hb, hb1, -⟩ := C79_plane_contains h (by linarith) p m q hm ht ht1 hs0
  refine ⟨q, by rw [planeProject_eq, hq], ?_⟩
  have hbt : b = true := by
    apply hb1
    have c1 := exp_eps_le2 h (k := 1) le_rfl (by linarith)
    have c2 := exp_eps_le2 h (k := 2 * n + 6) (by linarith) (by nlinarith)
    have c3 := exp_eps_le2 h (k := (3 * n + 9) / 2) (by linarith) (by nlinarith)
    rw [one_mul] at c1
    rw [h.exp_eps] at c3
    have hX := norm_nonneg x
    have hW : 0 ≤ dist x p := dist_nonneg
    have g1 : ‖q - foot x m p‖ ≤ 2 * u * ‖x‖ + (4 * n + 12) * u * dist x p := by
      rw [dist_comm p x] at hqe
      refine hqe.trans (add_le_add (mul_le_mul_of_nonneg_right (by linarith) hX)
        (mul_le_mul_of_nonneg_right (by linarith) hW))
    have g2 : dist q p ≤ dist x p + ‖q - foot x m p‖ := by
      have a1 := dist_triangle q (foot x m p) p
      have a2 := foot_dist_le x m p hm 0
      rw [zero_smul, add_zero, dist_comm p, dist_comm p] at a2
      rw [← dist_eq_norm]; linarith
    have g3 : |signedDist p m q| ≤ ‖q - foot x m p‖ := by
      have := signedDist_lip p m q (foot x m p)
      rw [signedDist_foot p m x hm, sub_zero] at this
      rw [← dist_eq_norm]; exact this
    refine plane_const (N := 4 * n + 12) hu0 hX hW (norm_nonneg _) (by linarith) hu g1 ?_ g3 ?_
    · exact mul_le_mul (by linarith) g2 dist_nonneg (by positivity)
    · exact le_trans (le_of_eq (by ring)) hs
  rw [hb, hbt]

/-! ### Circles and spheres -/

theorem arrIsEqual_rd {x y : E n} (hxy : x ≠ y) : @arrIsEqual ℝ (rounded fl) (arr x) (arr y) = false := by
  by_contra hc
  apply hxy
  simp only [arrIsEqual, length_arr, decide_true, Bool.true_and, Bool.not_eq_false, List.all_eq_true, eq_rd,
    decide_eq_true_eq] at hc
  ext i
  have : (x i, y i) ∈ List.zip (arr x) (arr y) := by
    have e : List.zip (arr x) (arr y) = List.ofFn fun i => (x i, y i) := by
      apply List.ext_getElem <;> simp [arr]
    rw [e, List.mem_ofFn]; exact ⟨i, rfl⟩
  exact hc _ this

theorem sphereProject_rd [NeZero n] (h : StdRounding u fl) {c x : E n} (hx : x ≠ c) {r : ℝ} (hr : 0 < r) :
    ∃ q : E n, @baseProjectPoint ℝ (rounded fl) (arr c) r (arr x) = .ok (arr q) ∧
      dist q (c + (r / dist x c) • (x - c)) ≤ (Real.exp (eps u) - 1) * ‖c‖ +
        (Real.exp ((n + 13) / 2 * eps u) - 1) * r := by
  have hε := h.eps_nonneg
  obtain ⟨z, hz, hi⟩ := fromPoints_rd fl c x
  have hc : CRP (eps u) 1 z (x - c) := fun i => by rw [hi]; exact h.rp _
  have hd0 : x - c ≠ 0 := sub_ne_zero.mpr hx
  have hn := h.normv_rp zero_le_one hc
  obtain ⟨N, hN⟩ : ∃ N, N = @normv ℝ (rounded fl) (arr z) := ⟨_, rfl⟩
  rw [← hN] at hn
  have hN0 : N ≠ 0 := fun h0 => hd0 (norm_eq_zero.mp (hn.eq_zero.mp h0))
  obtain ⟨w, hw, hwi⟩ := sdiv_rd (fl := fl) N z
  obtain ⟨s, hs, hsi⟩ := smul_rd (fl := fl) r w
  obtain ⟨q, hq, hqi⟩ := vadd_rd (fl := fl) c s
  have hu : @Vec.unit ℝ (rounded fl) (arr z) = .ok (arr w) := by
    simp only [Vec.unit, Vec.norm, ← hN, eq_rd, zero_rd, hN0, decide_false, Bool.false_eq_true, if_false, hw]
  refine ⟨q, ?_, ?_⟩
  · simp only [baseProjectPoint, arrIsEqual_rd hx.symm, Bool.false_eq_true, if_false, hz, ok_bind, hu, hs, hq]
  obtain ⟨s₀, hs₀⟩ : ∃ s₀ : E n, s₀ = (r / dist x c) • (x - c) := ⟨_, rfl⟩
  have hcs : CRP (eps u) ((n + 11) / 2) s s₀ := by
    intro i
    rw [hsi, hwi, hs₀]
    have := h.step ((RP.refl (eps u) r).mul (h.step ((hc i).div hn)))
    rw [show (0 : ℝ) + (1 + (1 + (n + 3) / 2) + 1) + 1 = (n + 11) / 2 by ring] at this
    rw [show ((r / dist x c) • (x - c)) i = r * ((x - c) i / ‖x - c‖) by
      rw [dist_eq_norm, PiLp.smul_apply, smul_eq_mul]; ring]
    exact this
  have hn0 : ‖s₀‖ = r := by
    have : 0 < dist x c := dist_pos.mpr hx
    rw [hs₀, norm_smul, Real.norm_eq_abs, abs_of_pos (by positivity), ← dist_eq_norm, div_mul_cancel₀ _ this.ne']
  obtain ⟨A, hA⟩ : ∃ A, A = Real.exp ((n + 11) / 2 * eps u) := ⟨_, rfl⟩
  obtain ⟨C, hC⟩ : ∃ C, C = Real.exp (eps u) := ⟨_, rfl⟩
  have hA1 : 1 ≤ A := by rw [hA]; exact one_le_exp_eps h (by positivity)
  have hC1 : 1 ≤ C := by rw [hC]; exact Real.one_le_exp hε
  have e1 := CRP.norm_sub_le hcs (by positivity)
  rw [← hA, hn0] at e1
  have hcq : CRP (eps u) 1 q (c + s) := fun i => by rw [hqi]; exact h.rp _
  have e2 := CRP.norm_sub_le hcq (by linarith)
  rw [one_mul, ← hC] at e2
  have e3 : ‖s‖ ≤ A * r := by
    have := norm_add_le (s - s₀) s₀
    rw [sub_add_cancel, hn0] at this
    linarith
  have e4 : ‖c + s‖ ≤ ‖c‖ + A * r := (norm_add_le _ _).trans (by linarith)
  have hAC : Real.exp ((n + 13) / 2 * eps u) = A * C := by
    rw [hA, hC, ← Real.exp_add]; congr 1; ring
  rw [← hs₀, hAC, ← hC, dist_eq_norm]
  calc ‖q - (c + s₀)‖ = ‖(q - (c + s)) + (s - s₀)‖ := by congr 1; abel
    _ ≤ ‖q - (c + s)‖ + ‖s - s₀‖ := norm_add_le _ _
    _ ≤ (C - 1) * (‖c‖ + A * r) + (A - 1) * r :=
        add_le_add (e2.trans (mul_le_mul_of_nonneg_left e4 (by linarith))) e1
    _ = _ := by ring

theorem sphere_const {u X r η N s b d : ℝ} (hu : 0 ≤ u) (hX : 0 ≤ X) (hr : 0 ≤ r) (hη : 0 ≤ η) (hN : 14 ≤ N)
    (hNu : N * u ≤ 1 / 10) (h1 : η ≤ 2 * u * X + N * u * r) (hb : b ≤ N * u * (2 * r + η)) (hd : d ≤ η)
    (hs : 3 * u * X + 4 * N * u * r ≤ s) : (1 + u) * (d + b) ≤ s := by
  have hu1 : u ≤ 1 / 100 := by nlinarith
  obtain ⟨a, ha⟩ : ∃ a, a = u * X := ⟨_, rfl⟩
  obtain ⟨c, hc⟩ : ∃ c, c = N * u * r := ⟨_, rfl⟩
  have ha0 : 0 ≤ a := by rw [ha]; positivity
  have hc0 : 0 ≤ c := by rw [hc]; positivity
  have e1 : η ≤ 2 * a + c := by rw [ha, hc]; linarith
  have e2 : N * u * η ≤ 1 / 10 * η := mul_le_mul_of_nonneg_right hNu hη
  have e3 : b ≤ 2 * c + 1 / 10 * η := by
    have : N * u * (2 * r + η) = 2 * c + N * u * η := by rw [hc]; ring
    linarith
  have e4 : d + b ≤ 22 / 10 * a + 31 / 10 * c := by linarith
  have e5 : (1 + u) * (d + b) ≤ (1 + u) * (22 / 10 * a + 31 / 10 * c) := mul_le_mul_of_nonneg_left e4 (by linarith)
  have e6 : u * (22 / 10 * a + 31 / 10 * c) ≤ 1 / 100 * (22 / 10 * a + 31 / 10 * c) :=
    mul_le_mul_of_nonneg_right hu1 (by positivity)
  have e7 : 3 * u * X + 4 * N * u * r = 3 * a + 4 * c := by rw [ha, hc]; ring
  linarith

theorem circle_new_rd {c : E n} {r : ℝ} {C : Circle ℝ} (hC : @Circle.new ℝ (rounded fl) (arr c) r = .ok C) :
    0 < r ∧ C = ⟨arr c, r⟩ := by
  simp only [Circle.new, newBaseSphere, le_rd, zero_rd] at hC
  by_cases hr : r ≤ 0
  · simp [hr] at hC
  · refine ⟨not_le.mp hr, ?_⟩
    simp only [hr, decide_false, Bool.false_eq_true, if_false, bind_ok_iff, pure_ok, Except.ok.injEq] at hC
    obtain ⟨-, ⟨a, ha, rfl⟩, hC⟩ := hC
    have : a = arr c := by
      unfold new1D at ha
      split_ifs at ha
      simpa [eq_comm] using ha
    subst this
    split_ifs at hC
    simpa [eq_comm] using hC

theorem sphere_new_rd {c : E n} {r : ℝ} {C : Sphere ℝ} (hC : @Sphere.new ℝ (rounded fl) (arr c) r = .ok C) :
    0 < r ∧ C = ⟨arr c, r⟩ := by
  simp only [Sphere.new, newBaseSphere, le_rd, zero_rd] at hC
  by_cases hr : r ≤ 0
  · simp [hr] at hC
  · refine ⟨not_le.mp hr, ?_⟩
    simp only [hr, decide_false, Bool.false_eq_true, if_false, bind_ok_iff, pure_ok, Except.ok.injEq] at hC
    obtain ⟨-, ⟨a, ha, rfl⟩, hC⟩ := hC
    have : a = arr c := by
      unfold new1D at ha
      split_ifs at ha
      simpa [eq_comm] using ha
    subst this
    split_ifs at hC
    simpa [eq_comm] using hC

theorem sphere_contains_projection [NeZero n] (h : StdRounding u fl) (hu : (n + 14) * u ≤ 1 / 10) {c : E n} {r : ℝ}
    (hr : 0 < r) {x : E n} (hx : x ≠ c) {t s : ℝ} (ht : 0 ≤ t) (ht1 : t ≤ 1 / 4)
    (hs : u * (3 * ‖c‖ + (4 * n + 56) * r) ≤ s) :
    ∃ q : E n, @baseProjectPoint ℝ (rounded fl) (arr c) r (arr x) = .ok (arr q) ∧
      @Sphere.containsPoint ℝ (rounded fl) ⟨t, s⟩ ⟨arr c, r⟩ (arr q) = .ok true ∧
      @Circle.containsPoint ℝ (rounded fl) ⟨t, s⟩ ⟨arr c, r⟩ (arr q) = .ok true := by
  have hu0 := h.nonneg
  have hn1 : (1 : ℝ) ≤ n := by exact_mod_cast NeZero.one_le
  have hu1 : u ≤ 1 / 100 := by nlinarith
  obtain ⟨q, hq, hqe⟩ := sphereProject_rd h hx hr
  have hs0 : 0 ≤ s := le_trans (by positivity) hs
  obtain ⟨b, hb, hb', hb1, -⟩ := C79_sphere_contains h (by linarith) c q r hr ht ht1 hs0
  refine ⟨q, hq, ?_⟩
  have hbt : b = true := by
    apply hb1
    have c1 := exp_eps_le2 h (k := 1) le_rfl (by linarith)
    have c2 := exp_eps_le2 h (k := (n + 13) / 2) (by linarith) (by nlinarith)
    have c3 := exp_eps_le2 h (k := (n + 7) / 2) (by linarith) (by nlinarith)
    rw [one_mul] at c1
    rw [h.exp_eps] at c3
    obtain ⟨y, hy⟩ : ∃ y : E n, y = c + (r / dist x c) • (x - c) := ⟨_, rfl⟩
    rw [← hy] at hqe
    have hX := norm_nonneg c
    have hcy : dist c y = r := by
      have : 0 < dist x c := dist_pos.mpr hx
      rw [dist_comm, dist_eq_norm, hy, add_sub_cancel_left, norm_smul, Real.norm_eq_abs, abs_of_pos (by positivity),
        ← dist_eq_norm, div_mul_cancel₀ _ this.ne']
    have g1 : dist q y ≤ 2 * u * ‖c‖ + (n + 14) * u * r := by
      refine hqe.trans (add_le_add (mul_le_mul_of_nonneg_right (by linarith) hX)
        (mul_le_mul_of_nonneg_right (by linarith) hr.le))
    have g3 : |dist c q - r| ≤ dist q y := by
      rw [← hcy, abs_sub_comm, dist_comm q y, dist_comm c y, dist_comm c q]
      exact abs_dist_sub_le y q c
    refine sphere_const (N := n + 14) hu0 hX hr.le dist_nonneg (by linarith) hu g1 ?_ g3 ?_
    · have : dist c q + r ≤ 2 * r + dist q y := by have := abs_le.mp g3; linarith
      exact mul_le_mul (by linarith) this (by positivity) (by positivity)
    · exact le_trans (le_of_eq (by ring)) hs
  rw [hb, hb', hbt]
  exact ⟨rfl, rfl⟩

/-- C89: under rounding, `circle.contains_point(circle.project_point(x), rel_tol=t, abs_tol=s)` is `True` for every
`x` other than the center as soon as `abs_tol` is at least `u (3 ‖c‖ + 64 r)`, where `c` is the center and `r` the
radius; with the default `abs_tol = 0` it can be `False` (`C88_circle_projection_not_contained`). -/
theorem C89_circle (h : StdRounding u fl) (hu : 16 * u ≤ 1 / 10) {c : E 2} {r : ℝ} {C : Circle ℝ}
    (hC : @Circle.new ℝ (rounded fl) (arr c) r = .ok C) {x : E 2} (hx : x ≠ c) {t s : ℝ} (ht : 0 ≤ t)
    (ht1 : t ≤ 1 / 4) (hs : u * (3 * ‖c‖ + 64 * r) ≤ s) :
    ∃ q : E 2, @Circle.projectPoint ℝ (rounded fl) C (arr x) = .ok (arr q) ∧
      @Circle.containsPoint ℝ (rounded fl) ⟨t, s⟩ C (arr q) = .ok true := by
  obtain ⟨hr, rfl⟩ := circle_new_rd hC
  obtain ⟨q, hq, -, hb⟩ := sphere_contains_projection h (n := 2) (by push_cast; linarith) hr hx ht ht1
    (by push_cast; linarith)
  exact ⟨q, hq, hb⟩

/-- C89: the same for spheres, with `u (3 ‖c‖ + 68 r)`. -/
theorem C89_sphere (h : StdRounding u fl) (hu : 17 * u ≤ 1 / 10) {c : E 3} {r : ℝ} {S : Sphere ℝ}
    (hS : @Sphere.new ℝ (rounded fl) (arr c) r = .ok S) {x : E 3} (hx : x ≠ c) {t s : ℝ} (ht : 0 ≤ t)
    (ht1 : t ≤ 1 / 4) (hs : u * (3 * ‖c‖ + 68 * r) ≤ s) :
    ∃ q : E 3, @Sphere.projectPoint ℝ (rounded fl) S (arr x) = .ok (arr q) ∧
      @Sphere.containsPoint ℝ (rounded fl) ⟨t, s⟩ S (arr q) = .ok true := by
  obtain ⟨hr, rfl⟩ := sphere_new_rd hS
  obtain ⟨q, hq, hb, -⟩ := sphere_contains_projection h (n := 3) (by push_cast; linarith) hr hx ht ht1
    (by push_cast; linarith)
  exact ⟨q, hq, hb⟩

/-- The hypotheses of C89 are met by binary64 rounding, the line of `C88_line_projection_not_contained` and the
tolerance `10⁻¹⁴`. -/
example : ∃ L, @Line.new ℝ (rounded (leftToRight (roundNearest 53))) (arr (vec2 0 0)) (arr (vec2 1 3)) = .ok L ∧
    ∃ q : E 2, @Line.projectPoint ℝ (rounded (leftToRight (roundNearest 53))) L (arr (vec2 0 1)) = .ok (arr q) ∧
      @Line.containsPoint ℝ (rounded (leftToRight (roundNearest 53))) ⟨1 / 10 ^ 9, 1 / 10 ^ 14⟩ L (arr q) = .ok true := by
  have hstd := roundNearest_std (p := 53) (by norm_num)
  have hv : vec2 1 3 ≠ 0 := fun hv => by simpa [vec2] using congrFun (congrArg WithLp.ofLp hv) 0
  refine ⟨_, ((C73_constructors hstd (by norm_num) (vec2 0 0) (vec2 1 3)).1 hv).1, ?_⟩
  refine C89_line hstd (by norm_num) ((C73_constructors hstd (by norm_num) (vec2 0 0) (vec2 1 3)).1 hv).1 _
    (by norm_num) (by norm_num) ?_
  have h0 : ‖vec2 0 0‖ = 0 := by simp [vec2, EuclideanSpace.norm_eq]
  have h1 : dist (vec2 0 1) (vec2 0 0) = 1 := dist_vec2_of (by norm_num) (by norm_num)
  rw [h0, h1]
  norm_num

end SkSpatial
