import Verif.Props.Rounding4
import Verif.Props.Triangle
/-! # C80: recognising triangles under rounding -/

namespace SkSpatial
open StdRounding

variable {u : ℝ} {fl : Arith} {n : ℕ}

theorem abs_sub_le_abs_add_abs' (a b : ℝ) : |a - b| ≤ |a| + |b| := by
  rw [sub_eq_add_neg, ← abs_neg b]; exact abs_add_le _ _

theorem abs_fl_le (h : StdRounding u fl) (x : ℝ) : |fl x| ≤ (1 + u) * |x| := by
  have h1 := abs_sub_abs_le_abs_sub (fl x) x
  have h2 := h.err x
  linarith

theorem le_abs_fl (h : StdRounding u fl) (x : ℝ) : (1 - u) * |x| ≤ |fl x| := by
  have h1 := abs_sub_abs_le_abs_sub x (fl x)
  have h2 := h.err x
  rw [abs_sub_comm] at h1
  linarith

/-- The default relative tolerance as rounded. -/
theorem tol_bounds (h : StdRounding u fl) (hu : u ≤ 1 / 10000000000) :
    99 / 100000000000 ≤ fl (1 / 1000000000) ∧ fl (1 / 1000000000) ≤ 101 / 100000000000 := by
  have h9 := h.err (1 / 1000000000)
  have hu0 := h.nonneg
  rw [abs_of_pos (by norm_num : (0:ℝ) < 1 / 1000000000), abs_le] at h9
  constructor <;> linarith

theorem near_aux {d D M t u c F : ℝ} (hu0 : 0 ≤ u) (hu : u ≤ 1 / 10000000000) (t2 : 99 / 100000000000 ≤ t)
    (hM0 : 0 ≤ M) (hd0 : 0 ≤ d) (hd : d ≤ 9 / 10000000000 * M) (hF : D ≤ (1 + u) * d)
    (hc : M * (1 - 1 / 10000000000) ≤ c) (hF' : (1 - u) * (t * c) ≤ F) : D ≤ F := by
  have q1 : (1 + u) * d ≤ (1 + 1 / 10000000000) * (9 / 10000000000 * M) :=
    mul_le_mul (by linarith) hd hd0 (by norm_num)
  have q3 : 99 / 100000000000 * (M * (1 - 1 / 10000000000)) ≤ t * c :=
    mul_le_mul t2 hc (by nlinarith) (by linarith)
  have q4 : (1 - 1 / 10000000000) * (99 / 100000000000 * (M * (1 - 1 / 10000000000))) ≤ (1 - u) * (t * c) :=
    mul_le_mul (by linarith) q3 (by nlinarith) (by linarith)
  linarith

theorem far_aux {d D M t u c F : ℝ} (hu0 : 0 ≤ u) (hu : u ≤ 1 / 10000000000) (t0 : 0 ≤ t)
    (t1 : t ≤ 101 / 100000000000)
    (hM0 : 0 ≤ M) (hd0 : 0 ≤ d) (hF : (1 - u) * d ≤ D) (hc0 : 0 ≤ c)
    (hc : c ≤ M * (1 + 1 / 10000000000)) (hF' : F ≤ (1 + u) * (t * c)) (hDF : D ≤ F) :
    d ≤ 11 / 10000000000 * M := by
  have q1 : t * c ≤ 101 / 100000000000 * (M * (1 + 1 / 10000000000)) := mul_le_mul t1 hc hc0 (by norm_num)
  have q2 : (1 + u) * (t * c) ≤ (1 + 1 / 10000000000) * (101 / 100000000000 * (M * (1 + 1 / 10000000000))) :=
    mul_le_mul (by linarith) q1 (mul_nonneg t0 hc0) (by norm_num)
  have q3 : (1 - 1 / 10000000000) * d ≤ (1 - u) * d := mul_le_mul_of_nonneg_right (by linarith) hd0
  linarith

/-- `math.isclose` with the default tolerances on approximations `a`, `b` of non-negative numbers `x`, `y`. -/
theorem isclose_rp (h : StdRounding u fl) {k : ℝ} {a b x y : ℝ} (hk : 0 ≤ k) (hu : u ≤ 1 / 10000000000)
    (hE : Real.exp (k * eps u) - 1 ≤ 1 / 10000000000) (hx : 0 ≤ x) (hy : 0 ≤ y)
    (ha : RP (eps u) k a x) (hb : RP (eps u) k b y) :
    ∃ r, @isclose ℝ (rounded fl) (@Tol.default ℝ (rounded fl)) a b = .ok r ∧
      (|x - y| ≤ 7 / 10000000000 * max x y → r = true) ∧
      (r = true → |x - y| ≤ 13 / 10000000000 * max x y) := by
  classical
  have hu0 := h.nonneg
  rw [tolDefault_rd]
  obtain ⟨t2, t1⟩ := tol_bounds h hu
  obtain ⟨t, ht⟩ : ∃ t, t = fl (1 / 1000000000) := ⟨_, rfl⟩
  rw [← ht] at t1 t2 ⊢
  have ht0 : 0 ≤ t := by linarith
  rw [isclose_rd _ _ _ _ _ ht0 le_rfl]
  have a0 := ha.nonneg hx
  have b0 := hb.nonneg hy
  have da := ha.abs_sub_le
  have db := hb.abs_sub_le
  rw [abs_of_nonneg hx] at da
  rw [abs_of_nonneg hy] at db
  obtain ⟨M, hM⟩ : ∃ M, M = max x y := ⟨_, rfl⟩
  have hxM : x ≤ M := hM ▸ le_max_left _ _
  have hyM : y ≤ M := hM ▸ le_max_right _ _
  rw [← hM]
  have hM0 : 0 ≤ M := hx.trans hxM
  have da' : |a - x| ≤ 1 / 10000000000 * M := da.trans (mul_le_mul hE hxM hx (by norm_num))
  have db' : |b - y| ≤ 1 / 10000000000 * M := db.trans (mul_le_mul hE hyM hy (by norm_num))
  have daa := abs_le.mp da'
  have dbb := abs_le.mp db'
  have xa : a ≤ M * (1 + 1 / 10000000000) := by linarith
  have xb : b ≤ M * (1 + 1 / 10000000000) := by linarith
  have ta : |t * a| = t * a := abs_of_nonneg (mul_nonneg ht0 a0)
  have tb : |t * b| = t * b := abs_of_nonneg (mul_nonneg ht0 b0)
  have hta := abs_fl_le h (t * a)
  have htb := abs_fl_le h (t * b)
  have hta' := le_abs_fl h (t * a)
  have htb' := le_abs_fl h (t * b)
  rw [ta] at hta hta'
  rw [tb] at htb htb'
  have dlo := le_abs_fl h (b - a)
  have dhi := abs_fl_le h (b - a)
  have k1 : |x - y| ≤ |b - a| + 2 / 10000000000 * M := by
    calc |x - y| = |(x - a) + (b - y) - (b - a)| := by ring_nf
      _ ≤ |(x - a) + (b - y)| + |b - a| := abs_sub_le_abs_add_abs' _ _
      _ ≤ |x - a| + |b - y| + |b - a| := by gcongr; exact abs_add_le _ _
      _ ≤ _ := by rw [abs_sub_comm x a]; linarith
  have k2 : |b - a| ≤ |x - y| + 2 / 10000000000 * M := by
    calc |b - a| = |(x - a) + (b - y) - (x - y)| := by ring_nf
      _ ≤ |(x - a) + (b - y)| + |x - y| := abs_sub_le_abs_add_abs' _ _
      _ ≤ |x - a| + |b - y| + |x - y| := by gcongr; exact abs_add_le _ _
      _ ≤ _ := by rw [abs_sub_comm x a]; linarith
  refine ⟨_, rfl, fun hc => ?_, fun hr => ?_⟩
  · simp only [decide_eq_true_eq]
    rcases le_total x y with hxy | hxy
    · right; left
      have : M = y := by rw [hM, max_eq_right hxy]
      exact near_aux hu0 hu t2 hM0 (abs_nonneg _) (by linarith) dhi (by linarith) htb'
    · right; right; left
      have : M = x := by rw [hM, max_eq_left hxy]
      exact near_aux hu0 hu t2 hM0 (abs_nonneg _) (by linarith) dhi (by linarith) hta'
  · simp only [decide_eq_true_eq] at hr
    rcases hr with hr | hr | hr | hr
    · rw [hr, sub_self, abs_zero] at k1
      linarith
    · have := far_aux hu0 hu ht0 t1 hM0 (abs_nonneg (b - a)) dlo b0 xb htb hr
      linarith
    · have := far_aux hu0 hu ht0 t1 hM0 (abs_nonneg (b - a)) dlo a0 xa hta hr
      linarith
    · have := far_aux hu0 hu ht0 t1 hM0 (abs_nonneg (b - a)) dlo a0 xa (F := 0)
        (mul_nonneg (by linarith) (mul_nonneg ht0 a0)) hr
      linarith

/-- The side of a triangle between two distinct points, under rounding. -/
theorem side_rp [NeZero n] (h : StdRounding u fl) (hu : u ≤ 1 / 2) {x y : E n} (hxy : x ≠ y) :
    ∃ l, @Line.fromPoints ℝ (rounded fl) (arr x) (arr y) = .ok l ∧
      RP (eps u) ((n + 5) / 2) (@Vec.norm ℝ (rounded fl) l.direction) (dist x y) := by
  obtain ⟨z, hz, hi⟩ := fromPoints_rd fl x y
  have hc : CRP (eps u) 1 z (y - x) := fun i => by rw [hi]; exact h.rp _
  have hz0 : z ≠ 0 := by
    intro h0
    apply hxy
    ext i
    have := (hc i).eq_zero.mp (by rw [h0]; rfl)
    have : y i - x i = 0 := by simpa using this
    linarith
  refine ⟨⟨arr x, arr z⟩, ?_, ?_⟩
  · simp only [Line.fromPoints, hz, ok_bind, ((C73_constructors h hu x z).1 hz0).1]
  · have := h.normv_rp zero_le_one hc
    rw [dist_comm, dist_eq_norm]
    rw [show ((n + 5) / 2 : ℝ) = 1 + (n + 3) / 2 by ring]
    exact this

theorem lengths_rp [NeZero n] (h : StdRounding u fl) (hu : u ≤ 1 / 2) {a b c : E n}
    (hab : a ≠ b) (hbc : b ≠ c) (hca : c ≠ a) :
    ∃ x y z, @Triangle.lengths ℝ (rounded fl) ⟨arr a, arr b, arr c⟩ = .ok (x, y, z) ∧
      RP (eps u) ((n + 5) / 2) x (dist b c) ∧ RP (eps u) ((n + 5) / 2) y (dist c a) ∧
      RP (eps u) ((n + 5) / 2) z (dist a b) := by
  obtain ⟨l1, h1, r1⟩ := side_rp h hu hbc
  obtain ⟨l2, h2, r2⟩ := side_rp h hu hca
  obtain ⟨l3, h3, r3⟩ := side_rp h hu hab
  exact ⟨_, _, _, by simp [Triangle.lengths, Triangle.length, Triangle.line, h1, h2, h3], r1, r2, r3⟩

theorem triangle_new_rd [NeZero n] {ext : NumpyExt ℝ} {a b c : E n} {T : Triangle ℝ}
    (hT : @Triangle.new ℝ (rounded fl) ext (arr a) (arr b) (arr c) = .ok T) : T = ⟨arr a, arr b, arr c⟩ := by
  simp only [Triangle.new, new1D_rd, ok_bind, bind_ok_iff, length_arr, decide_true, Bool.and_self, Bool.not_true,
    Bool.false_eq_true, if_false] at hT
  obtain ⟨ps, -, col, -, hT⟩ := hT
  split_ifs at hT
  simpa [eq_comm] using hT

theorem RelDiff.symm {δ x y : ℝ} (h : RelDiff δ x y) : RelDiff δ y x := by
  unfold RelDiff at *; rwa [abs_sub_comm, max_comm]

theorem RelDiff.refl {δ x : ℝ} (hδ : 0 ≤ δ) (hx : 0 ≤ x) : RelDiff δ x x := by
  unfold RelDiff; simp; positivity

/-- The hypothesis on the unit roundoff used below: satisfied by binary64 (`u = 2⁻⁵³`) in every dimension up to
`810000`. -/
theorem small_exp (h : StdRounding u fl) (hu : (n + 7) * u ≤ 9 / 100000000000) :
    u ≤ 1 / 10000000000 ∧ Real.exp ((n + 5) / 2 * eps u) - 1 ≤ 1 / 10000000000 ∧
      Real.exp ((n + 7) * eps u) - 1 ≤ 1 / 10000000000 ∧
      Real.exp (2 * (n + 5) * eps u) - 1 ≤ 2 / 10000000000 := by
  have hu0 := h.nonneg
  have hε := h.eps_nonneg
  have hn : (0 : ℝ) ≤ n := Nat.cast_nonneg n
  have hnu := mul_nonneg hn hu0
  have e1 : Real.exp ((n + 7) * eps u) - 1 ≤ 1 / 10000000000 := by
    have := exp_eps_le h (n + 7) (b := 1 / 10000000000) (by norm_num) (by push_cast; nlinarith)
    push_cast at this
    exact this
  refine ⟨by nlinarith, ?_, e1, ?_⟩
  · refine le_trans (sub_le_sub_right (Real.exp_le_exp.mpr ?_) 1) e1
    gcongr; linarith
  · have := exp_eps_le h (2 * (n + 5)) (b := 2 / 10000000000) (by norm_num) (by push_cast; nlinarith)
    push_cast at this
    exact this

/-- C80: `classify()` with the default tolerances under rounding.  All sides within a relative difference of
`7e-10`: 'equilateral'; two sides within `7e-10` and the third further than `1.3e-9` from both: 'isosceles'; all
pairs further than `1.3e-9` apart: 'scalene'.  In particular triangles with exactly equal sides are recognised. -/
theorem C80_classify [NeZero n] (h : StdRounding u fl) (hu : (n + 7) * u ≤ 9 / 100000000000) {ext : NumpyExt ℝ}
    {a b c : E n} {T : Triangle ℝ} (hT : @Triangle.new ℝ (rounded fl) ext (arr a) (arr b) (arr c) = .ok T)
    (hab : a ≠ b) (hbc : b ≠ c) (hca : c ≠ a) :
    ∃ s, @Triangle.classify ℝ (rounded fl) (@Tol.default ℝ (rounded fl)) T = .ok s ∧
      (RelDiff (7 / 10 ^ 10) (dist a b) (dist b c) → RelDiff (7 / 10 ^ 10) (dist b c) (dist c a) →
        RelDiff (7 / 10 ^ 10) (dist c a) (dist a b) → s = "equilateral") ∧
      (RelDiff (7 / 10 ^ 10) (dist a b) (dist b c) → ¬ RelDiff (13 / 10 ^ 10) (dist b c) (dist c a) →
        ¬ RelDiff (13 / 10 ^ 10) (dist c a) (dist a b) → s = "isosceles") ∧
      (RelDiff (7 / 10 ^ 10) (dist b c) (dist c a) → ¬ RelDiff (13 / 10 ^ 10) (dist c a) (dist a b) →
        ¬ RelDiff (13 / 10 ^ 10) (dist a b) (dist b c) → s = "isosceles") ∧
      (RelDiff (7 / 10 ^ 10) (dist c a) (dist a b) → ¬ RelDiff (13 / 10 ^ 10) (dist a b) (dist b c) →
        ¬ RelDiff (13 / 10 ^ 10) (dist b c) (dist c a) → s = "isosceles") ∧
      (¬ RelDiff (13 / 10 ^ 10) (dist a b) (dist b c) → ¬ RelDiff (13 / 10 ^ 10) (dist b c) (dist c a) →
        ¬ RelDiff (13 / 10 ^ 10) (dist c a) (dist a b) → s = "scalene") := by
  obtain rfl := triangle_new_rd hT
  obtain ⟨hu1, hE, -, -⟩ := small_exp h hu
  obtain ⟨x, y, z, hl, rx, ry, rz⟩ := lengths_rp h (by linarith) hab hbc hca
  have hk : (0 : ℝ) ≤ (n + 5) / 2 := by positivity
  obtain ⟨r1, i1, p1, q1⟩ := isclose_rp h hk hu1 hE dist_nonneg dist_nonneg rx ry
  obtain ⟨r2, i2, p2, q2⟩ := isclose_rp h hk hu1 hE dist_nonneg dist_nonneg rx rz
  obtain ⟨r3, i3, p3, q3⟩ := isclose_rp h hk hu1 hE dist_nonneg dist_nonneg ry rz
  refine ⟨if r1.toNat + r2.toNat + r3.toNat = 3 then "equilateral" else
    if r1.toNat + r2.toNat + r3.toNat = 1 then "isosceles" else "scalene", ?_, ?_⟩
  · simp only [Triangle.classify, hl, ok_bind, i1, i2, i3, pure_ok]
    split_ifs <;> rfl
  · have e7 : (7 : ℝ) / 10 ^ 10 = 7 / 10000000000 := by norm_num
    have e13 : (13 : ℝ) / 10 ^ 10 = 13 / 10000000000 := by norm_num
    rw [e7, e13]
    have P2 : RelDiff (7 / 10000000000) (dist a b) (dist b c) → r2 = true := fun hh => p2 hh.symm
    have Q2 : ¬ RelDiff (13 / 10000000000) (dist a b) (dist b c) → r2 = false := fun hh => by
      by_contra hc; exact hh (RelDiff.symm (q2 (by simpa using hc)))
    have P1 : RelDiff (7 / 10000000000) (dist b c) (dist c a) → r1 = true := fun hh => p1 hh
    have Q1 : ¬ RelDiff (13 / 10000000000) (dist b c) (dist c a) → r1 = false := fun hh => by
      by_contra hc; exact hh (q1 (by simpa using hc))
    have P3 : RelDiff (7 / 10000000000) (dist c a) (dist a b) → r3 = true := fun hh => p3 hh
    have Q3 : ¬ RelDiff (13 / 10000000000) (dist c a) (dist a b) → r3 = false := fun hh => by
      by_contra hc; exact hh (q3 (by simpa using hc))
    refine ⟨fun u1 u2 u3 => ?_, fun u1 u2 u3 => ?_, fun u1 u2 u3 => ?_, fun u1 u2 u3 => ?_, fun u1 u2 u3 => ?_⟩
    · rw [P2 u1, P1 u2, P3 u3]; rfl
    · rw [P2 u1, Q1 u2, Q3 u3]; rfl
    · rw [P1 u1, Q3 u2, Q2 u3]; rfl
    · rw [P3 u1, Q2 u2, Q1 u3]; rfl
    · rw [Q2 u1, Q1 u2, Q3 u3]; rfl

theorem sort3_rd (fl : Arith) (x y z : ℝ) : @Triangle.sort3 ℝ (rounded fl) x y z = Triangle.sort3 x y z := by
  simp only [Triangle.sort3, lt_rd, lt_real]

/-- A rounded comparison can only be wrong on nearly equal numbers. -/
theorem sq_le_of_le (h : StdRounding u fl) {k a b x y : ℝ} (ha : RP (eps u) k a x) (hb : RP (eps u) k b y)
    (hx : 0 ≤ x) (hy : 0 ≤ y) (hab : a ≤ b) : x ^ 2 ≤ Real.exp (4 * k * eps u) * y ^ 2 := by
  have h1 := ha.le' hx
  have h2 := hb.le hy
  have h3 : x ≤ Real.exp (k * eps u) * (Real.exp (k * eps u) * y) :=
    h1.trans (mul_le_mul_of_nonneg_left (hab.trans h2) (Real.exp_pos _).le)
  calc x ^ 2 ≤ (Real.exp (k * eps u) * (Real.exp (k * eps u) * y)) ^ 2 := pow_le_pow_left₀ hx h3 2
    _ = _ := by
      rw [← mul_assoc, ← Real.exp_add, mul_pow, ← Real.exp_nat_mul]
      congr 2; push_cast; ring

theorem right_aux {F p q r : ℝ} (hF : F - 1 ≤ 2 / 10000000000) (hr : 0 < r)
    (hq : 0 < q) (h1 : p ^ 2 ≤ F * q ^ 2) (h2 : q ^ 2 ≤ F * r ^ 2)
    (h : p ^ 2 + q ^ 2 = r ^ 2 ∨ p ^ 2 + r ^ 2 = q ^ 2 ∨ q ^ 2 + r ^ 2 = p ^ 2) :
    |p ^ 2 + q ^ 2 - r ^ 2| ≤ 5 / 10000000000 * max (p ^ 2 + q ^ 2) (r ^ 2) := by
  have hp2 : 0 ≤ p ^ 2 := by positivity
  have hr2 : 0 < r ^ 2 := by positivity
  have hq2 : 0 < q ^ 2 := by positivity
  generalize p ^ 2 = P at *
  generalize q ^ 2 = Q at *
  generalize r ^ 2 = R at *
  have hFR : F * R ≤ (1 + 2 / 10000000000) * R := mul_le_mul_of_nonneg_right (by linarith) hr2.le
  have hFQ : F * Q ≤ (1 + 2 / 10000000000) * Q := mul_le_mul_of_nonneg_right (by linarith) hq2.le
  have hm1 : R ≤ max (P + Q) R := le_max_right _ _
  rcases h with h | h | h
  · rw [h, sub_self, abs_zero, max_self]; positivity
  · rw [abs_of_nonneg (by linarith)]
    linarith
  · exfalso
    linarith

/-- C80: `is_right()` with the default tolerances under rounding: every exactly right-angled triangle is accepted;
if a triangle is accepted, two of its sides `p`, `q` and the third `r` satisfy `p² + q² = r²` up to a relative
error of `1.3e-9`. -/
theorem C80_is_right [NeZero n] (h : StdRounding u fl) (hu : (n + 7) * u ≤ 9 / 100000000000) {ext : NumpyExt ℝ}
    {a b c : E n} {T : Triangle ℝ} (hT : @Triangle.new ℝ (rounded fl) ext (arr a) (arr b) (arr c) = .ok T)
    (hab : a ≠ b) (hbc : b ≠ c) (hca : c ≠ a) :
    ∃ w, @Triangle.isRight ℝ (rounded fl) (@Tol.default ℝ (rounded fl)) T = .ok w ∧
      (EuclideanGeometry.angle b a c = Real.pi / 2 ∨ EuclideanGeometry.angle a b c = Real.pi / 2 ∨
        EuclideanGeometry.angle a c b = Real.pi / 2 → w = true) ∧
      (w = true → ∃ p q r : ℝ, ({p, q, r} : Multiset ℝ) = {dist a b, dist b c, dist c a} ∧
        RelDiff (13 / 10 ^ 10) (p ^ 2 + q ^ 2) (r ^ 2)) := by
  obtain rfl := triangle_new_rd hT
  obtain ⟨hu1, hE5, hE, hE4⟩ := small_exp h hu
  obtain ⟨x, y, z, hl, rx, ry, rz⟩ := lengths_rp h (by linarith) hab hbc hca
  have hA := EuclideanGeometry.dist_sq_eq_dist_sq_add_dist_sq_iff_angle_eq_pi_div_two b a c
  have hB := EuclideanGeometry.dist_sq_eq_dist_sq_add_dist_sq_iff_angle_eq_pi_div_two a b c
  have hC := EuclideanGeometry.dist_sq_eq_dist_sq_add_dist_sq_iff_angle_eq_pi_div_two a c b
  rw [← hA, ← hB, ← hC]
  have d1 : 0 < dist b c := dist_pos.mpr hbc
  have d2 : 0 < dist c a := dist_pos.mpr hca
  have d3 : 0 < dist a b := dist_pos.mpr hab
  rw [dist_comm b a, dist_comm c b, dist_comm a c]
  generalize dist b c = X at *
  generalize dist c a = Y at *
  generalize dist a b = Z at *
  obtain ⟨p, q, r, hs, hpq, hqr, hor⟩ := sort3_spec x y z
  obtain ⟨P, Q, R, hP, hQ, hR, rP, rQ, rR, hM, hang⟩ : ∃ P Q R : ℝ, 0 < P ∧ 0 < Q ∧ 0 < R ∧
      RP (eps u) ((n + 5) / 2) p P ∧ RP (eps u) ((n + 5) / 2) q Q ∧ RP (eps u) ((n + 5) / 2) r R ∧
      ({P, Q, R} : Multiset ℝ) = {Z, X, Y} ∧
      (X * X = Z * Z + Y * Y ∨ Y * Y = Z * Z + X * X ∨ Z * Z = Y * Y + X * X →
        P ^ 2 + Q ^ 2 = R ^ 2 ∨ P ^ 2 + R ^ 2 = Q ^ 2 ∨ Q ^ 2 + R ^ 2 = P ^ 2) := by
    have mset : ∀ a b c : ℝ, ({a, b, c} : Multiset ℝ) = {b, a, c} ∧ ({a, b, c} : Multiset ℝ) = {a, c, b} := by
      intro a b c
      constructor
      · exact Multiset.cons_swap _ _ _
      · show a ::ₘ b ::ₘ c ::ₘ 0 = a ::ₘ c ::ₘ b ::ₘ 0
        rw [Multiset.cons_swap b c]
    rcases hor with e | e | e | e | e | e <;> simp only [Prod.mk.injEq] at e <;> obtain ⟨rfl, rfl, rfl⟩ := e
    · exact ⟨X, Y, Z, d1, d2, d3, rx, ry, rz, by rw [(mset X Y Z).2, (mset X Z Y).1], by grind⟩
    · exact ⟨X, Z, Y, d1, d3, d2, rx, rz, ry, by rw [(mset X Z Y).1], by grind⟩
    · exact ⟨Y, X, Z, d2, d1, d3, ry, rx, rz, by rw [(mset Y X Z).2, (mset Y Z X).1, (mset Z Y X).2], by grind⟩
    · exact ⟨Y, Z, X, d2, d3, d1, ry, rz, rx, by rw [(mset Y Z X).1, (mset Z Y X).2], by grind⟩
    · exact ⟨Z, X, Y, d3, d1, d2, rz, rx, ry, rfl, by grind⟩
    · exact ⟨Z, Y, X, d3, d2, d1, rz, ry, rx, by rw [(mset Z Y X).2], by grind⟩
  have sqp : ∀ {p P : ℝ}, RP (eps u) ((n + 5) / 2) p P → RP (eps u) (n + 6) (fl (p * p)) (P ^ 2) := by
    intro p P hp
    have := h.step (hp.mul hp)
    rw [← pow_two P] at this
    rwa [show ((n + 5) / 2 + (n + 5) / 2 + 1 : ℝ) = n + 6 by ring] at this
  have hε := h.eps_nonneg
  have hsum : RP (eps u) (n + 7) (fl (fl (p * p) + fl (q * q))) (P ^ 2 + Q ^ 2) := by
    have := h.step (RP.add (by positivity) (sqp rP) (sqp rQ) (by positivity) (by positivity))
    rw [show (n + 6 + 1 : ℝ) = n + 7 by ring] at this
    exact this
  have hr2 : RP (eps u) (n + 7) (fl (r * r)) (R ^ 2) := (sqp rR).mono hε (by linarith)
  obtain ⟨w, hw, w1, w2⟩ := isclose_rp h (by positivity) hu1 hE (by positivity) (by positivity) hsum hr2
  refine ⟨w, ?_, fun hh => w1 ?_, fun hh => ⟨P, Q, R, hM, ?_⟩⟩
  · simp only [Triangle.isRight, hl, ok_bind, sort3_rd, hs, sq_rd, add_rd, hw]
  · have e4 : (4 * ((n + 5) / 2) * eps u : ℝ) = 2 * (n + 5) * eps u := by ring
    have g1 := sq_le_of_le h rP rQ hP.le hQ.le hpq
    have g2 := sq_le_of_le h rQ rR hQ.le hR.le hqr
    rw [e4] at g1 g2
    refine (right_aux hE4 hR hQ g1 g2 (hang hh)).trans ?_
    have : 0 ≤ max (P ^ 2 + Q ^ 2) (R ^ 2) := le_max_of_le_right (by positivity)
    linarith
  · unfold RelDiff
    rw [show (13 : ℝ) / 10 ^ 10 = 13 / 10000000000 by norm_num]
    exact w2 hh

/-- A NumPy that finds rank two. -/
def rankTwo : NumpyExt ℝ := ⟨fun _ _ => 2, fun _ _ => ([], [], []), fun _ b => .ok b, fun _ b => b, fun _ x => x⟩

theorem triangle_345 (fl : Arith) : ∃ T, @Triangle.new ℝ (rounded fl) rankTwo (arr (vec2 0 0)) (arr (vec2 3 0))
    (arr (vec2 0 4)) = .ok T := by
  have hc : @Pts.areCollinear ℝ (rounded fl) rankTwo none [[0, 0], [3, 0], [0, 4]] = .ok false := by
    norm_num [Pts.areCollinear, Pts.affineRank, Pts.unique, npUnique, insertRow, rowEq, rowLt, newPoints, Pts.meanCenter,
      Pts.centroid, Pts.colMeans, rowDim, new1D, vsub, broadcast2, rankTwo, eq_rd, lt_rd, isFinite_rd, List.mapM_cons]
    exact one_lt_two
  have h2 : ∀ x y : ℝ, arr (vec2 x y) = [x, y] := fun x y => by simp [arr, vec2, List.ofFn_succ]
  exact ⟨⟨[0, 0], [3, 0], [0, 4]⟩, by simp [Triangle.new, h2, newPoints, new1D, isFinite_rd, hc]⟩

/-- The hypotheses of C80 are met by binary64 rounding and the 3-4-5 triangle. -/
example : ∃ T, @Triangle.new ℝ (rounded (leftToRight (roundNearest 53))) rankTwo (arr (vec2 0 0)) (arr (vec2 3 0))
      (arr (vec2 0 4)) = .ok T ∧
    @Triangle.isRight ℝ (rounded (leftToRight (roundNearest 53))) (@Tol.default ℝ (rounded (leftToRight (roundNearest 53)))) T = .ok true ∧
    @Triangle.classify ℝ (rounded (leftToRight (roundNearest 53))) (@Tol.default ℝ (rounded (leftToRight (roundNearest 53)))) T =
      .ok "scalene" := by
  obtain ⟨T, hT⟩ := triangle_345 (leftToRight (roundNearest 53))
  have d1 : dist (vec2 0 0) (vec2 3 0) = 3 := dist_vec2_of (by norm_num) (by norm_num)
  have d2 : dist (vec2 3 0) (vec2 0 4) = 5 := dist_vec2_of (by norm_num) (by norm_num)
  have d3 : dist (vec2 0 4) (vec2 0 0) = 4 := dist_vec2_of (by norm_num) (by norm_num)
  have hd : ∀ {x y : E 2} {r : ℝ}, dist x y = r → 0 < r → x ≠ y := fun hd hr => dist_pos.mp (hd ▸ hr)
  have hu : ((2 : ℕ) + 7 : ℝ) * (2 : ℝ) ^ (-((53 : ℕ) : ℤ)) ≤ 9 / 100000000000 := by norm_num
  have hstd := roundNearest_std (p := 53) (by norm_num)
  obtain ⟨w, hw, w1, -⟩ := C80_is_right hstd hu hT (hd d1 (by norm_num)) (hd d2 (by norm_num)) (hd d3 (by norm_num))
  obtain ⟨s, hs, -, -, -, -, s5⟩ :=
    C80_classify hstd hu hT (hd d1 (by norm_num)) (hd d2 (by norm_num)) (hd d3 (by norm_num))
  refine ⟨T, hT, ?_, ?_⟩
  · rw [hw, w1]
    left
    rw [← EuclideanGeometry.dist_sq_eq_dist_sq_add_dist_sq_iff_angle_eq_pi_div_two, d2, dist_comm, d1, d3]
    norm_num
  · rw [d1, d2, d3] at s5
    rw [hs, s5] <;> norm_num [RelDiff, abs_le]

end SkSpatial
