import Verif.Props.Ieee10
/-! # C122, continued: intersections of circles -/

namespace SkSpatial
open XReal StdRounding

variable {n : ℕ}

local notation "rn" => rounded (leftToRight (roundNearest 53))

/-- `math.sqrt`, including its error for negative arguments. -/
theorem mathSqrt_ie' {m M : ℤ} {x : ℝ} (h : Rng (2 * m) (2 * M) x) (hm : m ≤ 1022) (hM : M ≤ 1023) :
    (∃ y, @mathSqrt ℝ rn x = .ok y ∧ @mathSqrt XReal ieee (fin x) = .ok (fin y) ∧ Rng (m + 52) M y) ∨
    ∃ e, @mathSqrt ℝ rn x = .error e ∧ @mathSqrt XReal ieee (fin x) = .error e := by
  classical
  rcases le_or_gt 0 x with hx | hx
  · exact .inl (mathSqrt_ie h hm hM hx)
  · right
    refine ⟨.valueError "math domain error", ?_, ?_⟩
    · simp [mathSqrt, lt_rd, zero_rd, hx]
    · simp [mathSqrt, ieee_zero, ieee_lt, lt_rd, zero_rd, hx]

theorem new1D_pair (a b : ℝ) : @new1D ℝ rn [a, b] = .ok (arr (vec2 a b)) ∧ @new1D XReal ieee [fin a, fin b] = .ok (xarr (vec2 a b)) := by
  have h := new1D_rd (fl := leftToRight (roundNearest 53)) (vec2 a b)
  have h' := ieee_new1D (vec2 a b)
  rw [← h, ← h']
  simp [arr2, xarr2, vec2]

theorem intRng (k : ℤ) (hk : |k| ≤ 1) : Rng 0 0 (@PyNum.ofInt ℝ rn k) := by
  rw [ofInt_rd]
  have h : |(k : ℝ)| ≤ 1 := by exact_mod_cast hk
  refine ⟨⟨k, by norm_num⟩, by simpa using h⟩

theorem two_ie : @two XReal ieee = fin (@two ℝ rn) ∧ Rng 0 1 (@two ℝ rn) :=
  ⟨rfl, by rw [two_rd]; simpa using Rng.int (k := 2) (M := 1) (by norm_num)⟩

set_option maxHeartbeats 2000000 in
/-- C122: `circle.intersect_circle(other)`. -/
theorem C122_circle_intersect_circle {p q : E 2} {r s : ℝ} (hp : ModerateV p) (hq : ModerateV q) (hr : Moderate r) (hs : Moderate s) :
    @Circle.intersectCircle XReal ieee ⟨xarr p, fin r⟩ ⟨xarr q, fin s⟩ =
      asPair (@Circle.intersectCircle ℝ rn ⟨arr p, r⟩ ⟨arr q, s⟩) := by
  classical
  obtain ⟨d, d1, d2, d3⟩ := distancePoint_ie (by norm_num) hp.rv hq.rv (by norm_num) (by norm_num)
  obtain ⟨a1, a2⟩ := ieee_add hr.rng hs.rng (by norm_num) (by norm_num)
  obtain ⟨b1, b2⟩ := ieee_sub hr.rng hs.rng (by norm_num) (by norm_num)
  simp only [Circle.intersectCircle, d1, d2, ok_bind, ieee_zero, ieee_eq, a1, b1, ieee_lt, ieee_abs]
  by_cases h0 : @PyNum.eq ℝ rn d (@zero ℝ rn) = true
  · simp only [h0, if_true, asPair_error]
  simp only [h0]
  have hd0 : d ≠ 0 := by
    intro h; apply h0; rw [eq_rd, zero_rd, h]; simp
  by_cases h1 : @PyNum.lt ℝ rn (@PyNum.add ℝ rn r s) d = true
  · simp only [h1, if_true, asPair_error, Bool.false_eq_true, if_false]
  simp only [h1]
  by_cases h2 : @PyNum.lt ℝ rn d (@PyNum.abs ℝ rn (@PyNum.sub ℝ rn r s)) = true
  · simp only [h2, if_true, asPair_error, Bool.false_eq_true, if_false]
  simp only [h2, Bool.false_eq_true, if_false, sq]
  obtain ⟨r1, r2⟩ := ieee_mul hr.rng hr.rng (by norm_num) (by norm_num)
  obtain ⟨s1, s2⟩ := ieee_mul hs.rng hs.rng (by norm_num) (by norm_num)
  obtain ⟨k1, k2⟩ := ieee_mul d3 d3 (by norm_num) (by norm_num)
  obtain ⟨e1, e2⟩ := ieee_sub r2 s2 (by norm_num) (by norm_num)
  obtain ⟨f1, f2⟩ := ieee_add (e2.mono (by norm_num) (by norm_num)) k2 (by norm_num) (by norm_num)
  obtain ⟨g1, g2⟩ := ieee_mul two_ie.2 d3 (by norm_num) (by norm_num)
  have hg : @PyNum.mul ℝ rn (@two ℝ rn) d ≠ 0 := by
    rw [mul_rd, two_rd]
    intro h
    exact (mul_ne_zero two_ne_zero hd0) ((std53.rp _).eq_zero.mp h)
  obtain ⟨i1, i2⟩ := ieee_div f2 g2 hg (by norm_num) (by norm_num)
  rw [r1, s1, k1, e1, f1, two_ie.1, g1, i1]
  obtain ⟨A, hA⟩ : ∃ A, A = @PyNum.div ℝ rn (@PyNum.add ℝ rn (@PyNum.sub ℝ rn (@PyNum.mul ℝ rn r r) (@PyNum.mul ℝ rn s s)) (@PyNum.mul ℝ rn d d))
    (@PyNum.mul ℝ rn (@two ℝ rn) d) := ⟨_, rfl⟩
  rw [← hA] at i2 ⊢
  obtain ⟨j1, j2⟩ := ieee_mul i2 i2 (by norm_num) (by norm_num)
  obtain ⟨l1, l2⟩ := ieee_sub (r2.mono (by norm_num) (by norm_num)) j2 (by norm_num) (by norm_num)
  rw [j1, l1]
  rcases mathSqrt_ie' (m := 439) (M := 312) (l2.mono (by norm_num) (by norm_num)) (by norm_num) (by norm_num) with
    ⟨H, m1, m2, m3⟩ | ⟨e, m1, m2⟩
  swap
  · rw [m1, m2]; rfl
  rw [m1, m2, ok_bind, ok_bind]
  obtain ⟨v, v1, v2, v3⟩ := fromPoints_ie hp hq
  obtain ⟨w, w1, w2, w3⟩ := ieee_smul i2 v3 (by norm_num) (by norm_num)
  obtain ⟨x, x1, x2, x3⟩ := ieee_sdiv d3 hd0 w3 (by norm_num) (by norm_num)
  obtain ⟨y, y1, y2, y3⟩ := ieee_vadd (hp.rv.mono (by norm_num) (by norm_num)) x3 (by norm_num) (by norm_num)
  rw [v1, v2, ok_bind, ok_bind, w1, w2, x1, x2, y1, y2, ok_bind, ok_bind]
  simp only [xarr2, arr2]
  have side : ∀ (k : ℤ) (i : Fin 2), |k| ≤ 1 →
      @PyNum.div XReal ieee (@PyNum.mul XReal ieee (@PyNum.mul XReal ieee (@PyNum.ofInt XReal ieee k) (fin H)) (@PyNum.sub XReal ieee (fin (p i)) (fin (q i)))) (fin d) =
        fin (@PyNum.div ℝ rn (@PyNum.mul ℝ rn (@PyNum.mul ℝ rn (@PyNum.ofInt ℝ rn k) H) (@PyNum.sub ℝ rn (p i) (q i))) d) ∧
      Rng 723 517 (@PyNum.div ℝ rn (@PyNum.mul ℝ rn (@PyNum.mul ℝ rn (@PyNum.ofInt ℝ rn k) H) (@PyNum.sub ℝ rn (p i) (q i))) d) := by
    intro k i hk
    obtain ⟨t1, t2⟩ := ieee_mul (intRng k hk) m3 (by norm_num) (by norm_num)
    obtain ⟨u1, u2⟩ := ieee_sub (hp.rv i) (hq.rv i) (by norm_num) (by norm_num)
    obtain ⟨z1, z2⟩ := ieee_mul t2 u2 (by norm_num) (by norm_num)
    obtain ⟨o1, o2⟩ := ieee_div z2 d3 hd0 (by norm_num) (by norm_num)
    refine ⟨?_, o2.mono (by norm_num) (by norm_num)⟩
    rw [show @PyNum.ofInt XReal ieee k = fin (@PyNum.ofInt ℝ rn k) from rfl, t1, u1, z1, o1]
  have hy0 := fun i => (y3 i).mono (by norm_num : (_ : ℤ) ≤ 723) (by norm_num : (_ : ℤ) ≤ 517)
  rw [(side 1 1 (by norm_num)).1, (side 1 0 (by norm_num)).1, (side (-1) 1 (by norm_num)).1, (side (-1) 0 (by norm_num)).1,
    (ieee_add (hy0 0) (side 1 1 (by norm_num)).2 (by norm_num) (by norm_num)).1,
    (ieee_sub (hy0 1) (side 1 0 (by norm_num)).2 (by norm_num) (by norm_num)).1,
    (ieee_add (hy0 0) (side (-1) 1 (by norm_num)).2 (by norm_num) (by norm_num)).1,
    (ieee_sub (hy0 1) (side (-1) 0 (by norm_num)).2 (by norm_num) (by norm_num)).1]
  simp only [(new1D_pair _ _).1, (new1D_pair _ _).2, ok_bind, pure_ok, asPair_ok]

/-- A unit vector of the plane has a coordinate of size at least `7/10`, also under rounding. -/
theorem unit_big {x z : E 2} (hx : x ≠ 0) (hz : @Vec.unit ℝ rn (arr x) = .ok (arr z)) : ∃ i, 7 / 10 ≤ |z i| := by
  obtain ⟨y, y1, y2⟩ := unit_rd std53 x hx
  have hzy : z = y := arr_injective (Except.ok.inj (hz.symm.trans y1))
  subst hzy
  have hN : ‖(‖x‖⁻¹ • x)‖ ^ 2 = 1 := by
    rw [norm_smul, norm_inv, norm_norm, inv_mul_cancel₀ (norm_ne_zero_iff.mpr hx), one_pow]
  obtain ⟨w, hw⟩ : ∃ w, w = ‖x‖⁻¹ • x := ⟨_, rfl⟩
  rw [← hw] at y2 hN
  rw [EuclideanSpace.norm_sq_eq, Fin.sum_univ_two, Real.norm_eq_abs, Real.norm_eq_abs, sq_abs, sq_abs] at hN
  have big : ∃ i, 705 / 1000 ≤ |w i| := by
    by_contra h
    push Not at h
    have h0 := h 0
    have h1 := h 1
    nlinarith [sq_abs (w 0), sq_abs (w 1), abs_nonneg (w 0), abs_nonneg (w 1)]
  obtain ⟨i, hi⟩ := big
  refine ⟨i, ?_⟩
  obtain ⟨δ, hδ, e⟩ := y2 i
  rw [e, abs_mul, abs_of_pos (Real.exp_pos δ)]
  have h1 : Real.exp (((2 : ℕ) + 5) / 2 * eps (2 ^ (-(53 : ℕ) : ℤ))) - 1 ≤ 2 * (((2 : ℕ) + 5) / 2) * 2 ^ (-(53 : ℕ) : ℤ) :=
    exp_eps_le2 std53 (by norm_num) (by norm_num)
  have h2 : Real.exp (((2 : ℕ) + 5) / 2 * eps (2 ^ (-(53 : ℕ) : ℤ))) ≤ 1001 / 1000 := by norm_num at h1 ⊢; linarith
  have h3 : Real.exp (-δ) ≤ 1001 / 1000 := (Real.exp_le_exp.mpr ((neg_le_abs δ).trans hδ)).trans h2
  have h4 : Real.exp (-δ) * Real.exp δ = 1 := by rw [← Real.exp_add]; simp
  have h5 := Real.exp_pos δ
  nlinarith [Real.exp_pos (-δ)]

/-- Adding a coordinate of size `7/10` to a moderate number and translating changes it, in spite of rounding. -/
theorem shift_ne {p c u p' a b : ℝ} (hp : |p| ≤ 2 ^ 50) (hc : |c| ≤ 2 ^ 50) (hu : 7 / 10 ≤ |u|) (hu' : |u| ≤ 8)
    (h1 : |p' - (p + u)| ≤ 1 / 2 ^ 53 * |p + u|) (h2 : |a - (p - c)| ≤ 1 / 2 ^ 53 * |p - c|) (h3 : |b - (p' - c)| ≤ 1 / 2 ^ 53 * |p' - c|) : b ≠ a := by
  rintro rfl
  have e1 : |p + u| ≤ 2 ^ 50 + 8 := (abs_add_le _ _).trans (by linarith)
  have e2 : |p - c| ≤ 2 ^ 50 + 2 ^ 50 := (abs_sub _ _).trans (by linarith)
  have e3 : |p'| ≤ 2 ^ 50 + 9 := by
    have := abs_sub_abs_le_abs_sub p' (p + u)
    have : 1 / 2 ^ 53 * |p + u| ≤ 1 := by norm_num at e1 ⊢; linarith
    linarith
  have e4 : |p' - c| ≤ 2 ^ 50 + 9 + 2 ^ 50 := (abs_sub _ _).trans (by linarith)
  have f1 : |p' - (p + u)| ≤ 0.126 := by norm_num at e1 h1 ⊢; linarith
  have f2 : |b - (p - c)| ≤ 0.251 := by norm_num at e2 h2 ⊢; linarith
  have f3 : |b - (p' - c)| ≤ 0.251 := by norm_num at e4 h3 ⊢; linarith
  rw [abs_le] at f1 f2 f3
  have : |u| ≤ 0.63 := by rw [abs_le]; constructor <;> linarith [f1.1, f1.2, f2.1, f2.2, f3.1, f3.2]
  norm_num at this
  linarith

set_option maxHeartbeats 2000000 in
/-- C122: `circle.intersect_line(line)`; the division never fails. -/
theorem C122_circle_intersect_line {c p v : E 2} {r : ℝ} (hc : ModerateV c) (hr : Moderate r) (hp : ModerateV p) (hv : ModerateV v) :
    @Circle.intersectLine XReal ieee ⟨xarr c, fin r⟩ ⟨xarr p, xarr v⟩ =
      asPair (@Circle.intersectLine ℝ rn ⟨arr c, r⟩ ⟨arr p, arr v⟩) := by
  classical
  by_cases hv0 : v = 0
  · simp only [Circle.intersectLine, (unit_zero_ie (by norm_num) hv.rv hv0).1, (unit_zero_ie (by norm_num) hv.rv hv0).2, error_bind, asPair_error]
  obtain ⟨u, u1, u2, u3⟩ := unit_ie50 (by norm_num) hv hv0
  obtain ⟨q, q1, q2, q3⟩ := ieee_vadd (hp.rv.mono (by norm_num : (102 : ℤ) ≤ 179) le_rfl) (u3.mono le_rfl (by norm_num)) (by norm_num) (by norm_num)
  obtain ⟨a, a1, a2, a3⟩ := ieee_vsub hp.rv hc.rv (by norm_num) (by norm_num)
  obtain ⟨b, b1, b2, b3⟩ := ieee_vsub q3 (hc.rv.mono (by norm_num) (by norm_num)) (by norm_num) (by norm_num)
  have ha := a3.mono (by norm_num : (102 : ℤ) ≤ 179) (by norm_num : (50 + 1 : ℤ) ≤ 52)
  have hb := b3.mono (le_refl (179 : ℤ)) (by norm_num : (50 + 1 + 1 : ℤ) ≤ 52)
  -- the two translated points differ
  have hne : b 0 ≠ a 0 ∨ b 1 ≠ a 1 := by
    obtain ⟨i, hi⟩ := unit_big hv0 u1
    obtain ⟨q', q1', qi⟩ := vadd_rd (fl := leftToRight (roundNearest 53)) p u
    obtain ⟨a', a1', ai⟩ := vsub_rd (fl := leftToRight (roundNearest 53)) p c
    obtain ⟨b', b1', bi⟩ := vsub_rd (fl := leftToRight (roundNearest 53)) q c
    have hq' : q = q' := arr_injective (Except.ok.inj (q1.symm.trans q1'))
    have ha' : a = a' := arr_injective (Except.ok.inj (a1.symm.trans a1'))
    have hb' : b = b' := arr_injective (Except.ok.inj (b1.symm.trans b1'))
    rw [← hq'] at qi; rw [← ha'] at ai; rw [← hb'] at bi
    have err : ∀ x : ℝ, |roundNearest 53 x - x| ≤ 1 / 2 ^ 53 * |x| := by
      intro x
      have := std53.err x
      refine this.trans (le_of_eq ?_)
      norm_num
    have hm : ∀ {x : ℝ}, Moderate x → |x| ≤ 2 ^ 50 := fun {x} hx => by
      refine hx.2.2.trans (le_of_eq (by norm_num))
    have key : b i ≠ a i := by
      refine shift_ne (hm (hp i)) (hm (hc i)) hi ((u3 i).2.trans (le_of_eq (by norm_num))) (p' := q i) ?_ ?_ ?_
      · rw [qi]; exact err _
      · rw [ai]; exact err _
      · rw [bi]; exact err _
    fin_cases i
    · exact .inl key
    · exact .inr key
  obtain ⟨x1, x2⟩ := ieee_sub (hb 0) (ha 0) (by norm_num) (by norm_num)
  obtain ⟨y1, y2⟩ := ieee_sub (hb 1) (ha 1) (by norm_num) (by norm_num)
  have hxy : @PyNum.sub ℝ rn (b 0) (a 0) ≠ 0 ∨ @PyNum.sub ℝ rn (b 1) (a 1) ≠ 0 := by
    have h : ∀ i, b i ≠ a i → @PyNum.sub ℝ rn (b i) (a i) ≠ 0 := by
      intro i hi h0
      rw [sub_rd] at h0
      exact hi (sub_eq_zero.mp ((std53.rp _).eq_zero.mp h0))
    exact hne.imp (h 0) (h 1)
  simp only [Circle.intersectLine, u1, u2, ok_bind, q1, q2, a1, a2, b1, b2]
  simp only [xarr2 a, xarr2 b, arr2 a, arr2 b, sq, x1, y1]
  obtain ⟨X, hX⟩ : ∃ X, X = @PyNum.sub ℝ rn (b 0) (a 0) := ⟨_, rfl⟩
  obtain ⟨Y, hY⟩ : ∃ Y, Y = @PyNum.sub ℝ rn (b 1) (a 1) := ⟨_, rfl⟩
  rw [← hX] at hxy x2
  rw [← hY] at hxy y2
  rw [← hX, ← hY]
  obtain ⟨e1, e2⟩ := ieee_mul x2 x2 (by norm_num) (by norm_num)
  obtain ⟨f1, f2⟩ := ieee_mul y2 y2 (by norm_num) (by norm_num)
  obtain ⟨g1, g2⟩ := ieee_add e2 f2 (by norm_num) (by norm_num)
  obtain ⟨i1, i2⟩ := ieee_mul (ha 0) (hb 1) (by norm_num) (by norm_num)
  obtain ⟨j1, j2⟩ := ieee_mul (hb 0) (ha 1) (by norm_num) (by norm_num)
  obtain ⟨k1, k2⟩ := ieee_sub i2 j2 (by norm_num) (by norm_num)
  simp only [e1, f1, g1, i1, j1, k1]
  have hS0 : @PyNum.add ℝ rn (@PyNum.mul ℝ rn X X) (@PyNum.mul ℝ rn Y Y) ≠ 0 := by
    rw [add_rd, mul_rd, mul_rd]
    intro h0
    have h1 := (std53.rp _).eq_zero.mp h0
    have n1 : 0 ≤ roundNearest 53 (X * X) := (std53.rp _).nonneg (mul_self_nonneg X)
    have n2 : 0 ≤ roundNearest 53 (Y * Y) := (std53.rp _).nonneg (mul_self_nonneg Y)
    have h2 : roundNearest 53 (X * X) + roundNearest 53 (Y * Y) = 0 := h1
    have hx0 : roundNearest 53 (X * X) = 0 := by linarith
    have hy0 : roundNearest 53 (Y * Y) = 0 := by linarith
    have hx1 : X * X = 0 := (std53.rp _).eq_zero.mp hx0
    have hy1 : Y * Y = 0 := (std53.rp _).eq_zero.mp hy0
    rcases hxy with h | h
    · exact h (mul_self_eq_zero.mp hx1)
    · exact h (mul_self_eq_zero.mp hy1)
  obtain ⟨S, hS⟩ : ∃ S, S = @PyNum.add ℝ rn (@PyNum.mul ℝ rn X X) (@PyNum.mul ℝ rn Y Y) := ⟨_, rfl⟩
  obtain ⟨D, hD⟩ : ∃ D, D = @PyNum.sub ℝ rn (@PyNum.mul ℝ rn (a 0) (b 1)) (@PyNum.mul ℝ rn (b 0) (a 1)) := ⟨_, rfl⟩
  rw [← hS] at hS0 g2
  rw [← hD] at k2
  simp only [← hS, ← hD]
  obtain ⟨r1, r2⟩ := ieee_mul hr.rng hr.rng (by norm_num) (by norm_num)
  obtain ⟨s1, s2⟩ := ieee_mul r2 g2 (by norm_num) (by norm_num)
  obtain ⟨t1, t2⟩ := ieee_mul k2 k2 (by norm_num) (by norm_num)
  obtain ⟨w1, w2⟩ := ieee_sub (s2.mono (by norm_num : _ ≤ (179 + 179 + (179 + 179) : ℤ)) (by norm_num : _ ≤ (210 : ℤ))) (t2.mono le_rfl (by norm_num)) (by norm_num) (by norm_num)
  simp only [r1, s1, t1, w1, ieee_zero, ieee_lt]
  by_cases hneg : @PyNum.lt ℝ rn (@PyNum.sub ℝ rn (@PyNum.mul ℝ rn (@PyNum.mul ℝ rn r r) S) (@PyNum.mul ℝ rn D D)) (@zero ℝ rn) = true
  · simp only [hneg, if_true, asPair_error]
  simp only [hneg, Bool.false_eq_true, if_false]
  rcases mathSqrt_ie' (m := 358) (M := 106) (w2.mono (by norm_num) (by norm_num)) (by norm_num) (by norm_num) with ⟨R, m1, m2, m3⟩ | ⟨e, m1, m2⟩
  swap
  · rw [m1, m2]; rfl
  rw [m1, m2, ok_bind, ok_bind]
  have hsgn : ∃ σ : ℝ, Rng 0 0 σ ∧ (if @PyNum.lt ℝ rn Y (@zero ℝ rn) = true then @PyNum.ofInt XReal ieee (-1) else @PyNum.ofInt XReal ieee 1) = fin σ ∧
      (if @PyNum.lt ℝ rn Y (@zero ℝ rn) = true then @PyNum.ofInt ℝ rn (-1) else @PyNum.ofInt ℝ rn 1) = σ := by
    cases @PyNum.lt ℝ rn Y (@zero ℝ rn)
    · exact ⟨_, intRng 1 (by norm_num), rfl, rfl⟩
    · exact ⟨_, intRng (-1) (by norm_num), rfl, rfl⟩
  obtain ⟨σ, σ1, σ2, σ3⟩ := hsgn
  simp only [σ2, σ3]
  have xo : ∀ k : ℤ, |k| ≤ 1 → ∃ z : ℝ, Rng 748 518 z ∧
      @PyNum.div XReal ieee (@PyNum.add XReal ieee (@PyNum.mul XReal ieee (fin D) (fin Y)) (@PyNum.mul XReal ieee (@PyNum.mul XReal ieee (@PyNum.mul XReal ieee (@PyNum.ofInt XReal ieee k) (fin σ)) (fin X)) (fin R))) (fin S) = fin z ∧
      @PyNum.div ℝ rn (@PyNum.add ℝ rn (@PyNum.mul ℝ rn D Y) (@PyNum.mul ℝ rn (@PyNum.mul ℝ rn (@PyNum.mul ℝ rn (@PyNum.ofInt ℝ rn k) σ) X) R)) S = z := by
    intro k hk
    obtain ⟨A1, A2⟩ := ieee_mul k2 y2 (by norm_num) (by norm_num)
    obtain ⟨B1, B2⟩ := ieee_mul (intRng k hk) σ1 (by norm_num) (by norm_num)
    obtain ⟨C1, C2⟩ := ieee_mul B2 x2 (by norm_num) (by norm_num)
    obtain ⟨D1, D2⟩ := ieee_mul C2 m3 (by norm_num) (by norm_num)
    obtain ⟨E1, E2⟩ := ieee_add (A2.mono (by norm_num : _ ≤ (589 : ℤ)) (by norm_num : _ ≤ (159 : ℤ))) (D2.mono (by norm_num) (by norm_num)) (by norm_num) (by norm_num)
    obtain ⟨F1, F2⟩ := ieee_div E2 g2 hS0 (by norm_num) (by norm_num)
    refine ⟨_, F2.mono (by norm_num) (by norm_num), ?_, rfl⟩
    rw [A1, show @PyNum.ofInt XReal ieee k = fin (@PyNum.ofInt ℝ rn k) from rfl, B1, C1, D1, E1, F1]
  have yo : ∀ k : ℤ, |k| ≤ 1 → ∃ z : ℝ, Rng 748 518 z ∧
      @PyNum.div XReal ieee (@PyNum.add XReal ieee (@PyNum.mul XReal ieee (@PyNum.neg XReal ieee (fin D)) (fin X)) (@PyNum.mul XReal ieee (@PyNum.mul XReal ieee (@PyNum.ofInt XReal ieee k) (@PyNum.abs XReal ieee (fin Y))) (fin R))) (fin S) = fin z ∧
      @PyNum.div ℝ rn (@PyNum.add ℝ rn (@PyNum.mul ℝ rn (@PyNum.neg ℝ rn D) X) (@PyNum.mul ℝ rn (@PyNum.mul ℝ rn (@PyNum.ofInt ℝ rn k) (@PyNum.abs ℝ rn Y)) R)) S = z := by
    intro k hk
    have n1 : Rng (179 + 179) (52 + 52 + 1) (@PyNum.neg ℝ rn D) := by rw [neg_rd]; exact k2.neg
    have n2 : Rng 179 (52 + 1) (@PyNum.abs ℝ rn Y) := by rw [abs_rd]; exact y2.abs
    obtain ⟨A1, A2⟩ := ieee_mul n1 x2 (by norm_num) (by norm_num)
    obtain ⟨B1, B2⟩ := ieee_mul (intRng k hk) n2 (by norm_num) (by norm_num)
    obtain ⟨D1, D2⟩ := ieee_mul B2 m3 (by norm_num) (by norm_num)
    obtain ⟨E1, E2⟩ := ieee_add (A2.mono (by norm_num : _ ≤ (589 : ℤ)) (by norm_num : _ ≤ (159 : ℤ))) (D2.mono (by norm_num) (by norm_num)) (by norm_num) (by norm_num)
    obtain ⟨F1, F2⟩ := ieee_div E2 g2 hS0 (by norm_num) (by norm_num)
    refine ⟨_, F2.mono (by norm_num) (by norm_num), ?_, rfl⟩
    rw [ieee_neg, ieee_abs, A1, show @PyNum.ofInt XReal ieee k = fin (@PyNum.ofInt ℝ rn k) from rfl, B1, D1, E1, F1]
  obtain ⟨z1, z1r, z1i, z1n⟩ := xo (-1) (by norm_num)
  obtain ⟨z2, z2r, z2i, z2n⟩ := yo (-1) (by norm_num)
  obtain ⟨z3, z3r, z3i, z3n⟩ := xo 1 (by norm_num)
  obtain ⟨z4, z4r, z4i, z4n⟩ := yo 1 (by norm_num)
  rw [z1i, z1n, z2i, z2n, z3i, z3n, z4i, z4n, (new1D_pair z1 z2).1, (new1D_pair z1 z2).2, (new1D_pair z3 z4).1, (new1D_pair z3 z4).2, ok_bind, ok_bind,
    ok_bind, ok_bind]
  have rv : ∀ {s t : ℝ}, Rng 748 518 s → Rng 748 518 t → RV 748 518 (vec2 s t) := by
    intro s t hs ht i
    fin_cases i
    · exact hs
    · exact ht
  obtain ⟨o, o1, o2, -⟩ := ieee_vadd (rv z1r z2r) (hc.rv.mono (by norm_num) (by norm_num)) (by norm_num) (by norm_num)
  obtain ⟨o', o1', o2', -⟩ := ieee_vadd (rv z3r z4r) (hc.rv.mono (by norm_num) (by norm_num)) (by norm_num) (by norm_num)
  rw [o1, o2, o1', o2', ok_bind, ok_bind, ok_bind, ok_bind, pure_ok, pure_ok, asPair_ok]

/-- The hypotheses of C122 are met by `0`, `0.1` and small integers: two points, two directions and a radius for circles, lines and
segments; and lists of such points with a non-zero one. -/
example : ∃ (c d p v : E 2) (r : ℝ), ModerateV c ∧ ModerateV d ∧ ModerateV p ∧ ModerateV v ∧ Moderate r ∧ v ≠ 0 ∧ c ≠ d := by
  refine ⟨vec2 0 ((3 : ℤ) : ℝ), vec2 ((5 : ℤ) : ℝ) ((3 : ℤ) : ℝ), vec2 (3602879701896397 / 36028797018963968) ((-7 : ℤ) : ℝ),
    vec2 ((1 : ℤ) : ℝ) ((2 : ℤ) : ℝ), ((4 : ℤ) : ℝ),
    moderate_vec2 moderate_zero (moderate_int (by norm_num)), moderate_vec2 (moderate_int (by norm_num)) (moderate_int (by norm_num)),
    moderate_vec2 moderate_tenth (moderate_int (by norm_num)), moderate_vec2 (moderate_int (by norm_num)) (moderate_int (by norm_num)),
    moderate_int (by norm_num), ?_, ?_⟩
  · intro h
    have := congrArg (fun x : E 2 => x 0) h
    simp [vec2] at this
  · intro h
    have := congrArg (fun x : E 2 => x 0) h
    norm_num [vec2] at this

example : ∃ (P : List (E 3)), P ≠ [] ∧ P.length ≤ 2 ^ 53 ∧ (∀ x ∈ P, ModerateV x) ∧ ∃ x ∈ P, x ≠ 0 := by
  refine ⟨[vec3 0 0 ((3 : ℤ) : ℝ), vec3 (3602879701896397 / 36028797018963968) ((-7 : ℤ) : ℝ) 0], by simp, by simp, ?_, vec3 0 0 ((3 : ℤ) : ℝ), by simp, ?_⟩
  · intro x hx
    simp only [List.mem_cons, List.not_mem_nil, or_false] at hx
    rcases hx with rfl | rfl
    · exact moderate_vec3 moderate_zero moderate_zero (moderate_int (by norm_num))
    · exact moderate_vec3 moderate_tenth (moderate_int (by norm_num)) moderate_zero
  · intro h
    have := congrArg (fun x : E 3 => x 2) h
    simp [vec3] at this

end SkSpatial
