import Verif.Props.Ieee12
import Verif.Props.Rounding17
/-!
# C125: intersections of lines and cylinders in IEEE binary64

`cylinder.intersect_line(line)` squares quantities that were computed from unit vectors, so for numbers as small as `2⁻⁵⁰` (the
moderate numbers of C96) the bounds of C96 on intermediate results do not exclude underflow.  For everyday numbers, of magnitude between `2⁻²⁰` and `2²⁰`,
they do.
-/

namespace SkSpatial
open XReal StdRounding

local notation "rn" => rounded (leftToRight (roundNearest 53))

/-- `x` is zero or of magnitude at least `2⁻ᴸ`. -/
def Low (L : ℤ) (x : ℝ) : Prop := x = 0 ∨ (2 : ℝ) ^ (-L) ≤ |x|

theorem Low.mono {L L' : ℤ} {x : ℝ} (h : Low L x) (hL : L ≤ L') : Low L' x :=
  h.imp id fun h => (zpow_le_zpow_right₀ (by norm_num) (by omega)).trans h

theorem Mul2.low {m : ℤ} {x : ℝ} (h : Mul2 m x) : Low m x := by
  by_cases hx : x = 0
  · exact .inl hx
  · exact .inr (h.le_abs hx)

theorem Rng.low {m M : ℤ} {x : ℝ} (h : Rng m M x) : Low m x := h.1.low

theorem Low.mul {L L' : ℤ} {x y : ℝ} (h : Low L x) (h' : Low L' y) : Low (L + L') (x * y) := by
  rcases h with rfl | h
  · left; simp
  rcases h' with rfl | h'
  · left; simp
  right
  rw [abs_mul, neg_add, zpow_add₀ (by norm_num)]
  exact mul_le_mul h h' (by positivity) (abs_nonneg _)

theorem rn_low {L : ℤ} {x : ℝ} (h : Low L x) : Low L (roundNearest 53 x) := by
  rcases h with rfl | h
  · left; exact roundNearest_zero
  · right
    have hm := roundNearest_mono (p := 53) (by norm_num)
    rcases le_total 0 x with h0 | h0
    · rw [abs_of_nonneg h0] at h
      have := hm h
      rw [rn_pow] at this
      exact this.trans (le_abs_self _)
    · rw [abs_of_nonpos h0] at h
      have := hm h
      rw [rn_pow, roundNearest_neg] at this
      exact this.trans (neg_le_abs _)

/-- Products of numbers that are not too small. -/
theorem ieee_mul_low {L m M L' m' M' : ℤ} {x y : ℝ} (h : Rng m M x) (h' : Rng m' M' y) (hx : Low L x) (hy : Low L' y) (hL : L + L' ≤ 1022)
    (hM : M + M' ≤ 1023) :
    @PyNum.mul XReal ieee (fin x) (fin y) = fin (@PyNum.mul ℝ rn x y) ∧
      Rng (L + L' + 52) (M + M') (@PyNum.mul ℝ rn x y) ∧ Low (L + L') (@PyNum.mul ℝ rn x y) := by
  have hb := (h.mul h').2
  have hl := hx.mul hy
  refine ⟨?_, ⟨rn_mul2_of_le hl, rn_abs_le (rn_pow _) hb⟩, rn_low hl⟩
  show binary64 (fin (x * y)) = _
  refine binary64_fin ?_ (hb.trans (zpow_le_zpow_right₀ (by norm_num) hM))
  rcases hl with h0 | h0
  · left; rw [h0]; exact Mul2.zero _
  · right; exact (zpow_le_zpow_right₀ (by norm_num) (by omega)).trans h0

variable {n : ℕ}

/-- All coordinates are zero or not too small. -/
def LV (L : ℤ) (x : E n) : Prop := ∀ i, Low L (x i)

theorem RV.lv {m M : ℤ} {x : E n} (h : RV m M x) : LV m x := fun i => (h i).low

theorem ieee_dot_low {L m M L' m' M' : ℤ} {x y : E n} (hn : n ≤ 2 ^ 53) (hx : RV m M x) (hy : RV m' M' y) (lx : LV L x) (ly : LV L' y)
    (hL : L + L' ≤ 1022) (hM : M + M' + 53 ≤ 1023) :
    @dotv XReal ieee (xarr x) (xarr y) = fin (@dotv ℝ rn (arr x) (arr y)) ∧
      @dot XReal ieee (xarr x) (xarr y) = .ok (fin (@dotv ℝ rn (arr x) (arr y))) ∧
      Rng (L + L' + 52) (M + M' + 53) (@dotv ℝ rn (arr x) (arr y)) := by
  have h1 : List.zipWith (@PyNum.mul XReal ieee) (xarr x) (xarr y) = (List.zipWith (@PyNum.mul ℝ rn) (arr x) (arr y)).map fin := by
    apply List.ext_getElem
    · simp
    · intro i h1 h2
      simp only [List.getElem_zipWith, xarr, List.getElem_map, arr, List.getElem_ofFn]
      exact (ieee_mul_low (hx _) (hy _) (lx _) (ly _) hL (by omega)).1
  have h2 := ieee_sumL (m := L + L' + 52) (M := M + M') (by omega) hM (l := List.zipWith (@PyNum.mul ℝ rn) (arr x) (arr y)) (by
      intro z hz
      rw [zipWith_arr] at hz
      obtain ⟨i, rfl⟩ := List.mem_ofFn.mp hz
      exact (ieee_mul_low (hx i) (hy i) (lx i) (ly i) hL (by omega)).2.1) (by simpa using hn)
  have h3 : @dotv XReal ieee (xarr x) (xarr y) = fin (@dotv ℝ rn (arr x) (arr y)) := by
    show @sumL XReal ieee (List.zipWith (@PyNum.mul XReal ieee) (xarr x) (xarr y)) = _
    rw [h1]; exact h2.1
  refine ⟨h3, ?_, h2.2⟩
  unfold dot
  rw [if_pos (by simp), h3]

theorem ieee_smul_low {L m M L' m' M' : ℤ} {t : ℝ} {x : E n} (ht : Rng m M t) (hx : RV m' M' x) (lt : Low L t) (lx : LV L' x)
    (hL : L + L' ≤ 1022) (hM : M + M' ≤ 1023) :
    ∃ z : E n, @smul ℝ rn t (arr x) = arr z ∧ @smul XReal ieee (fin t) (xarr x) = xarr z ∧ RV (L + L' + 52) (M + M') z := by
  obtain ⟨z, hz, hi⟩ := smul_rd (fl := leftToRight (roundNearest 53)) t x
  refine ⟨z, hz, ieee_map hi fun i => (ieee_mul_low ht (hx i) lt (lx i) hL hM).1, fun i => ?_⟩
  rw [hi]; exact (ieee_mul_low ht (hx i) lt (lx i) hL hM).2.1

private theorem exp_bounds {δ : ℝ} (h : |δ| ≤ (0 + (((3 : ℕ) : ℝ) + 3) / 2) * eps (2 ^ (-((53 : ℕ) : ℤ)))) :
    1 / 2 < Real.exp δ ∧ Real.exp δ ≤ 2 := by
  have h1 := exp_eps_le2 std53 (k := 3) (by norm_num) (by norm_num)
  have h2 : Real.exp (3 * eps (2 ^ (-((53 : ℕ) : ℤ)))) ≤ 3 / 2 := by
    refine (sub_le_iff_le_add.mp h1).trans ?_
    norm_num
  have h3 : |δ| ≤ 3 * eps (2 ^ (-((53 : ℕ) : ℤ))) := h.trans (le_of_eq (by norm_num))
  obtain ⟨h4, h5⟩ := abs_le.mp h3
  constructor
  · have h6 : Real.exp (-δ) ≤ 3 / 2 := (Real.exp_le_exp.mpr (by linarith)).trans h2
    rw [Real.exp_neg, inv_le_comm₀ (Real.exp_pos _) (by norm_num)] at h6
    exact lt_of_lt_of_le (by norm_num) h6
  · exact ((Real.exp_le_exp.mpr h5).trans h2).trans (by norm_num)

/-- The length of a 3D vector. -/
theorem ieee_norm_low {L m M : ℤ} {x : E 3} (hx : RV m M x) (lx : LV L x) (hL : L + L ≤ 1022) (hM : M + M + 54 ≤ 1023) (h0 : 0 ≤ L) :
    @normv XReal ieee (xarr x) = fin (@normv ℝ rn (arr x)) ∧ Rng (L + 53) (M + 2) (@normv ℝ rn (arr x)) ∧ Low (L + 1) (@normv ℝ rn (arr x)) := by
  obtain ⟨h1, -, h2⟩ := ieee_dot_low (by norm_num) hx hx lx lx hL (by omega)
  have h3 : 0 ≤ @dotv ℝ rn (arr x) (arr x) :=
    ((roundNearest_std (p := 53) (by norm_num)).dotv_self_rp le_rfl (CRP.refl _ x)).nonneg (by positivity)
  obtain ⟨e, -⟩ := ieee_sqrt (m := L + 26) (M := M + 27) (h2.mono (by omega) (by omega)) h3 (by omega) (by omega)
  have e' : @normv ℝ rn (arr x) = roundNearest 53 (Real.sqrt (@dotv ℝ rn (arr x) (arr x))) := by
    unfold normv
    rw [toFloats_rd]
    rfl
  obtain ⟨δ, hδ, hN⟩ := std53.normv_rp le_rfl (CRP.refl _ x)
  obtain ⟨b1, b2⟩ := exp_bounds hδ
  have hup : |@normv ℝ rn (arr x)| ≤ (2 : ℝ) ^ (M + 2) := by
    have hn2 : ‖x‖ ≤ 2 * (2 : ℝ) ^ M := by
      have : ‖x‖ ^ 2 ≤ (2 * (2 : ℝ) ^ M) ^ 2 := by
        rw [EuclideanSpace.norm_sq_eq, Fin.sum_univ_three]
        simp only [Real.norm_eq_abs]
        have q : ∀ i, |x i| ^ 2 ≤ ((2 : ℝ) ^ M) ^ 2 := fun i => by gcongr; exact (hx i).2
        have := q 0; have := q 1; have := q 2
        nlinarith [sq_nonneg ((2 : ℝ) ^ M)]
      exact le_of_sq_le_sq this (by positivity)
    rw [hN, abs_of_nonneg (by positivity), zpow_add₀ (by norm_num)]
    calc ‖x‖ * Real.exp δ ≤ 2 * (2 : ℝ) ^ M * 2 := by gcongr
      _ = _ := by norm_num; ring
  have hlow : x = 0 ∨ (2 : ℝ) ^ (-(L + 1)) < @normv ℝ rn (arr x) := by
    by_cases hx0 : x = 0
    · exact .inl hx0
    right
    obtain ⟨i, hi⟩ : ∃ i, x i ≠ 0 := by
      by_contra hc
      push Not at hc
      exact hx0 (by ext i; simpa using hc i)
    have h4 : (2 : ℝ) ^ (-L) ≤ ‖x‖ := ((lx i).resolve_left hi).trans (by simpa using PiLp.norm_apply_le (p := 2) x i)
    have h5 : 0 < ‖x‖ := norm_pos_iff.mpr hx0
    rw [hN, neg_add, zpow_add₀ (by norm_num)]
    calc (2 : ℝ) ^ (-L) * (2 : ℝ) ^ (-1 : ℤ) ≤ ‖x‖ * (1 / 2) := by
          refine mul_le_mul h4 (by norm_num) (by positivity) (by positivity)
      _ < _ := mul_lt_mul_of_pos_left b1 h5
  refine ⟨?_, ⟨?_, hup⟩, ?_⟩
  · unfold normv
    rw [ieee_toFloats, toFloats_rd, h1]
    exact e
  · rw [e']
    refine (rn_mul2_of_le (s := L + 1) ?_).mono (by omega)
    rcases hlow with rfl | hlow
    · left
      have : @dotv ℝ rn (arr (0 : E 3)) (arr (0 : E 3)) = 0 :=
        ((roundNearest_std (p := 53) (by norm_num)).dotv_self_rp le_rfl (CRP.refl _ (0 : E 3))).eq_zero.mpr (by simp)
      rw [this, Real.sqrt_zero]
    · right
      rw [abs_of_nonneg (Real.sqrt_nonneg _)]
      by_contra hc
      have := roundNearest_mono (p := 53) (by norm_num) (not_le.mp hc).le
      rw [rn_pow, ← e'] at this
      exact absurd hlow (not_lt.mpr this)
  · rcases hlow with rfl | hlow
    · left; rw [hN, norm_zero, zero_mul]
    · right; exact hlow.le.trans (le_abs_self _)

theorem Everyday.rng {x : ℝ} (h : Everyday x) : Rng 72 20 x ∧ Low 20 x := by
  obtain ⟨h1, h2, h3⟩ := h
  refine ⟨⟨?_, h3⟩, h2⟩
  have e : roundNearest 53 x = x := by
    have : binary64 (fin x) = fin (roundNearest 53 x) := by
      refine binary64_fin ?_ (h3.trans (zpow_le_zpow_right₀ (by norm_num) (by norm_num)))
      rcases h2 with rfl | h2
      · exact .inl (Mul2.zero _)
      · exact .inr ((zpow_le_zpow_right₀ (by norm_num) (by norm_num)).trans h2)
    rw [IsFloat, this] at h1
    exact XReal.fin.inj h1
  have := rn_mul2_of_le h2
  rw [e] at this
  exact this.mono (by norm_num)

theorem EverydayV.rv {x : E n} (h : EverydayV x) : RV 72 20 x := fun i => (h i).rng.1
theorem EverydayV.lv {x : E n} (h : EverydayV x) : LV 20 x := fun i => (h i).rng.2

theorem Everyday.moderate {x : ℝ} (h : Everyday x) : Moderate x :=
  ⟨h.1, h.2.1.imp id fun h => (zpow_le_zpow_right₀ (by norm_num) (by norm_num)).trans h,
    h.2.2.trans (zpow_le_zpow_right₀ (by norm_num) (by norm_num))⟩

theorem EverydayV.moderate {x : E n} (h : EverydayV x) : ModerateV x := fun i => (h i).moderate

/-- `v.unit()` in 3D. -/
theorem unit_low {x : E 3} (hx : EverydayV x) (hx0 : x ≠ 0) :
    ∃ z : E 3, @Vec.unit ℝ rn (arr x) = .ok (arr z) ∧ @Vec.unit XReal ieee (xarr x) = .ok (xarr z) ∧ RV 94 3 z ∧ LV 42 z := by
  obtain ⟨z, z1, z2, z3⟩ := unit_ie50 (by norm_num) hx.moderate hx0
  obtain ⟨-, ⟨-, hN⟩, -⟩ := ieee_norm_low hx.rv hx.lv (by norm_num) (by norm_num) (by norm_num)
  obtain ⟨y, y1, y2⟩ := sdiv_rd (fl := leftToRight (roundNearest 53)) (@normv ℝ rn (arr x)) x
  have h1 : @Vec.unit ℝ rn (arr x) = .ok (arr y) := by
    simp only [Vec.unit, Vec.norm, eq_rd, zero_rd, norm_pos_rn hx0, decide_false, Bool.false_eq_true, if_false, y1]
  have h2 : z = y := arr_injective (Except.ok.inj (z1.symm.trans h1))
  have hl : ∀ i, Low 42 (x i / @normv ℝ rn (arr x)) := by
    intro i
    rcases hx.lv i with h0 | h0
    · left; rw [h0, zero_div]
    · right
      rw [abs_div, le_div_iff₀ (abs_pos.mpr (norm_pos_rn hx0))]
      calc (2 : ℝ) ^ (-42 : ℤ) * |@normv ℝ rn (arr x)| ≤ (2 : ℝ) ^ (-42 : ℤ) * (2 : ℝ) ^ (22 : ℤ) :=
            mul_le_mul_of_nonneg_left (hN.trans (le_of_eq (by norm_num))) (by positivity)
        _ = (2 : ℝ) ^ (-20 : ℤ) := by rw [← zpow_add₀ (by norm_num)]; norm_num
        _ ≤ _ := h0
  refine ⟨z, z1, z2, fun i => ⟨?_, (z3 i).2⟩, fun i => ?_⟩
  · rw [h2, y2 i]
    exact rn_mul2_of_le (hl i)
  · rw [h2, y2 i]
    exact rn_low (hl i)

/-- The difference of a non-negative float and a float of at least `2⁻ˢ` is not tiny. -/
theorem sub_mul2 {s : ℤ} {x y : ℝ} (hx : 0 ≤ x) (hy : (2 : ℝ) ^ (-s) ≤ y) (hy2 : Mul2 (s + 54) y) :
    Mul2 (s + 54) (roundNearest 53 (roundNearest 53 x - y)) := by
  rcases le_or_gt x ((2 : ℝ) ^ (-(s + 2))) with h | h
  · refine (rn_mul2_of_le (s := s + 1) (.inr ?_)).mono (by omega)
    have h1 := roundNearest_mono (p := 53) (by norm_num) h
    rw [rn_pow] at h1
    have e1 : (2 : ℝ) ^ (-(s + 2)) = (2 : ℝ) ^ (-s) / 4 := by rw [neg_add, zpow_add₀ (by norm_num)]; norm_num; ring
    have e2 : (2 : ℝ) ^ (-(s + 1)) = (2 : ℝ) ^ (-s) / 2 := by rw [neg_add, zpow_add₀ (by norm_num)]; norm_num; ring
    have h2 : (0 : ℝ) < (2 : ℝ) ^ (-s) := by positivity
    rw [abs_sub_comm, e2]
    refine le_trans ?_ (le_abs_self _)
    linarith
  · refine rn_mul2 (Mul2.sub ?_ hy2)
    exact (rn_mul2_of_le (s := s + 2) (.inr (by rw [abs_of_nonneg hx]; exact h.le))).mono (by omega)


private theorem rng_four : Rng 0 2 (((4 : ℤ) : ℝ)) := by
  have := Rng.int (k := 4) (M := 2) (by norm_num)
  exact_mod_cast this
private theorem rng_two' : Rng 0 1 (((2 : ℤ) : ℝ)) := by
  have := Rng.int (k := 2) (M := 1) (by norm_num)
  exact_mod_cast this
private theorem rng_one' : Rng 0 0 (((1 : ℤ) : ℝ)) := by
  have := Rng.one
  exact_mod_cast this
private theorem rng_negone : Rng 0 0 (((-1 : ℤ) : ℝ)) := by
  have := Rng.one.neg
  exact_mod_cast this

set_option maxHeartbeats 1000000 in
/-- `solve_quadratic(a, b, c)` for the coefficients of the intersection problem. -/
theorem solveQuadratic_ie {a b c : ℝ} (ha : Rng 514 130 a) (hb : Rng 490 198 b) (hc : Rng 94 167 c) :
    (∃ x y, @solveQuadratic ℝ rn a b c none = .ok (x, y) ∧ @solveQuadratic XReal ieee (fin a) (fin b) (fin c) none = .ok (fin x, fin y) ∧
      Rng 725 714 x ∧ Rng 725 714 y) ∨
    ∃ e, @solveQuadratic ℝ rn a b c none = .error (.valueError e) ∧
      @solveQuadratic XReal ieee (fin a) (fin b) (fin c) none = .error (.valueError e) := by
  classical
  simp only [solveQuadratic, id, ieee_zero, ieee_eq, sq]
  by_cases h0 : @PyNum.eq ℝ rn a (@zero ℝ rn) = true
  · right; exact ⟨_, by simp only [h0, if_true]; rfl, by simp only [h0, if_true]⟩
  simp only [h0]
  have ha0 : a ≠ 0 := by intro h; apply h0; rw [eq_rd, zero_rd, h]; simp
  obtain ⟨b1, b2⟩ := ieee_mul hb hb (by norm_num) (by norm_num)
  obtain ⟨f1, f2⟩ := ieee_mul rng_four ha (by norm_num) (by norm_num)
  obtain ⟨g1, g2⟩ := ieee_mul f2 hc (by norm_num) (by norm_num)
  obtain ⟨d1, d2⟩ := ieee_sub (b2.mono (by norm_num : _ ≤ (980 : ℤ)) (by norm_num : _ ≤ (396 : ℤ))) (g2.mono (by norm_num) (by norm_num)) (by norm_num) (by norm_num)
  obtain ⟨t1, t2⟩ := ieee_mul rng_two' ha (by norm_num) (by norm_num)
  have ht : @PyNum.mul ℝ rn ((2 : ℤ) : ℝ) a ≠ 0 := by
    rw [mul_rd]
    intro h
    have := (std53.rp _).eq_zero.mp h
    simp [ha0] at this
  have e2 : @two XReal ieee = fin ((2 : ℤ) : ℝ) := rfl
  have e2' : @two ℝ rn = ((2 : ℤ) : ℝ) := rfl
  simp only [ieee_ofInt, ofInt_rd, b1, f1, g1, d1, ieee_lt, e2, e2', t1]
  by_cases h1 : @PyNum.lt ℝ rn (@PyNum.sub ℝ rn (@PyNum.mul ℝ rn b b) (@PyNum.mul ℝ rn (@PyNum.mul ℝ rn ((4 : ℤ) : ℝ) a) c)) (@zero ℝ rn) = true
  · right; exact ⟨_, by simp only [h1, if_true, Bool.false_eq_true, if_false]; rfl, by simp only [h1, if_true, Bool.false_eq_true, if_false]⟩
  simp only [h1, Bool.false_eq_true, if_false]
  have hD := d2.mono (by norm_num : (980 : ℤ) ≤ 2 * 490) (by norm_num : (396 + 1 : ℤ) ≤ 2 * 199)
  obtain ⟨y, y1, y2, y3⟩ := mathSqrt_ie hD (by norm_num) (by norm_num) (by
    rw [lt_rd, zero_rd, decide_eq_true_eq, not_lt] at h1
    exact h1)
  obtain ⟨m1, m2⟩ := ieee_mul rng_negone y3 (by norm_num) (by norm_num)
  obtain ⟨p1, p2⟩ := ieee_mul rng_one' y3 (by norm_num) (by norm_num)
  have hb' : Rng 542 199 (-b) := hb.neg.mono (by norm_num) (by norm_num)
  obtain ⟨u1, u2⟩ := ieee_add hb' (m2.mono (by norm_num) (by norm_num)) (by norm_num) (by norm_num)
  obtain ⟨v1, v2⟩ := ieee_add hb' (p2.mono (by norm_num) (by norm_num)) (by norm_num) (by norm_num)
  obtain ⟨x1, x2⟩ := ieee_div u2 t2 ht (by norm_num) (by norm_num)
  obtain ⟨z1, z2⟩ := ieee_div v2 t2 ht (by norm_num) (by norm_num)
  left
  refine ⟨_, _, by simp only [y1, ok_bind, pure_ok, neg_rd], ?_, x2.mono (by norm_num) (by norm_num), z2.mono (by norm_num) (by norm_num)⟩
  simp only [y2, ok_bind, pure_ok, ieee_neg, neg_rd, m1, p1, u1, v1, x1, z1]

set_option maxHeartbeats 2000000 in
/-- The intersection with the infinite cylinder. -/
theorem intersectInfinite_ie {p v q d : E 3} {r : ℝ} (hp : EverydayV p) (hv : EverydayV v) (hr : Everyday r) (hq : EverydayV q) (hd : EverydayV d)
    (hr0 : 0 < r) (hv0 : v ≠ 0) (hd0 : d ≠ 0) :
    (∃ a b : E 3, @Cylinder.intersectInfinite ℝ rn ⟨arr p, arr v, r⟩ ⟨arr q, arr d⟩ none = .ok (arr a, arr b) ∧
      @Cylinder.intersectInfinite XReal ieee ⟨xarr p, xarr v, fin r⟩ ⟨xarr q, xarr d⟩ none = .ok (xarr a, xarr b) ∧ RV 819 718 a ∧ RV 819 718 b) ∨
    ∃ e, @Cylinder.intersectInfinite ℝ rn ⟨arr p, arr v, r⟩ ⟨arr q, arr d⟩ none = .error e ∧
      @Cylinder.intersectInfinite XReal ieee ⟨xarr p, xarr v, fin r⟩ ⟨xarr q, xarr d⟩ none = .error e := by
  classical
  obtain ⟨vc, c1, c2, c3, c4⟩ := unit_low hv hv0
  obtain ⟨vl, l1, l2, l3, l4⟩ := unit_low hd hd0
  obtain ⟨w, w1, w2, w3⟩ := ieee_fromPoints hp.rv hq.rv (by norm_num) (by norm_num)
  obtain ⟨-, lc1, lc2⟩ := ieee_dot_low (by norm_num) l3 c3 l4 c4 (by norm_num) (by norm_num)
  obtain ⟨s, s1, s2, s3⟩ := ieee_smul_low lc2 c3 lc2.low c4 (by norm_num) (by norm_num)
  obtain ⟨pl, pl1, pl2, pl3⟩ := ieee_vsub (m := 230) (M := 62) (l3.mono (by norm_num) (by norm_num)) (s3.mono (by norm_num) (by norm_num)) (by norm_num) (by norm_num)
  obtain ⟨nl1, nl2, nl3⟩ := ieee_norm_low pl3 pl3.lv (by norm_num) (by norm_num) (by norm_num)
  obtain ⟨a1, a2, -⟩ := ieee_mul_low nl2 nl2 nl3 nl3 (by norm_num) (by norm_num)
  obtain ⟨-, pc1, pc2⟩ := ieee_dot (by norm_num) w3 c3 (by norm_num) (by norm_num)
  obtain ⟨t, t1, t2, t3⟩ := ieee_smul_low pc2 c3 pc2.low c4 (by norm_num) (by norm_num)
  obtain ⟨pp, pp1, pp2, pp3⟩ := ieee_vsub (m := 260) (M := 80) (w3.mono (by norm_num) (by norm_num)) (t3.mono (by norm_num) (by norm_num)) (by norm_num) (by norm_num)
  obtain ⟨-, lp1, lp2⟩ := ieee_dot (by norm_num) pl3 pp3 (by norm_num) (by norm_num)
  obtain ⟨b1, b2⟩ := ieee_mul rng_two' lp2 (by norm_num) (by norm_num)
  obtain ⟨np1, np2, np3⟩ := ieee_norm_low pp3 pp3.lv (by norm_num) (by norm_num) (by norm_num)
  obtain ⟨n1, n2, -⟩ := ieee_mul_low np2 np2 np3 np3 (by norm_num) (by norm_num)
  obtain ⟨r1, r2, r3⟩ := ieee_mul_low hr.rng.1 hr.rng.1 hr.rng.2 hr.rng.2 (by norm_num) (by norm_num)
  obtain ⟨k1, k2⟩ := ieee_sub (m := 574) (M := 166) (n2.mono (by norm_num) (by norm_num)) (r2.mono (by norm_num) (by norm_num)) (by norm_num) (by norm_num)
  have hr2 : (0 : ℝ) < @PyNum.mul ℝ rn r r := by
    rw [mul_rd]
    exact (std53.rp _).pos (mul_pos hr0 hr0)
  have k3 : Rng 94 167 (@PyNum.sub ℝ rn (@PyNum.mul ℝ rn (@normv ℝ rn (arr pp)) (@normv ℝ rn (arr pp))) (@PyNum.mul ℝ rn r r)) := by
    refine ⟨?_, k2.2⟩
    have := sub_mul2 (s := 40) (mul_self_nonneg (@normv ℝ rn (arr pp))) (y := @PyNum.mul ℝ rn r r) ?_ (r2.1.mono (by norm_num))
    · exact this
    · have := r3.resolve_left hr2.ne'
      rw [abs_of_pos hr2] at this
      exact this
  have e2 : @two XReal ieee = fin ((2 : ℤ) : ℝ) := rfl
  have e2' : @two ℝ rn = ((2 : ℤ) : ℝ) := rfl
  simp only [Cylinder.intersectInfinite, c1, c2, l1, l2, w1, w2, ok_bind, dot_rd, lc1, s1, s2, pl1, pl2, wrapped_rd, ieee_wrapped, sq, Vec.norm, nl1, a1,
    pc1, t1, t2, pp1, pp2, lp1, e2, e2', b1, np1, n1, r1, k1]
  rcases solveQuadratic_ie (a2.mono (by norm_num) (by norm_num)) (b2.mono (by norm_num) (by norm_num)) k3 with ⟨x, y, x1, x2, x3, x4⟩ | ⟨e, x1, x2⟩
  · left
    obtain ⟨f, f1, f2, f3⟩ := ieee_smul x3 l3 (by norm_num) (by norm_num)
    obtain ⟨g, g1, g2, g3⟩ := ieee_smul x4 l3 (by norm_num) (by norm_num)
    obtain ⟨a, A1, A2, A3⟩ := ieee_vadd (m := 819) (M := 717) (hq.rv.mono (by norm_num) (by norm_num)) (f3.mono (by norm_num) (by norm_num)) (by norm_num) (by norm_num)
    obtain ⟨b, B1, B2, B3⟩ := ieee_vadd (m := 819) (M := 717) (hq.rv.mono (by norm_num) (by norm_num)) (g3.mono (by norm_num) (by norm_num)) (by norm_num) (by norm_num)
    refine ⟨a, b, ?_, ?_, A3, B3⟩
    · simp only [x1, ok_bind, f1, g1, A1, B1, new1D_rd, pure_ok]
    · simp only [x2, ok_bind, f2, g2, A2, B2, ieee_new1D, pure_ok]
  · right
    refine ⟨_, by simp only [x1]; rfl, ?_⟩
    simp only [x2]; rfl


/-- `_between_cap_planes` of a computed point. -/
theorem betweenCapPlanes_ie {p v x : E 3} {r : ℝ} (hp : EverydayV p) (hv : EverydayV v) (hv0 : v ≠ 0) (hx : RV 819 718 x) :
    ∃ b, @Cylinder.betweenCapPlanes ℝ rn ⟨arr p, arr v, r⟩ (arr x) = .ok b ∧
      @Cylinder.betweenCapPlanes XReal ieee ⟨xarr p, xarr v, fin r⟩ (xarr x) = .ok b := by
  classical
  obtain ⟨z, z1, z2, z3, -⟩ := unit_low hv hv0
  obtain ⟨w, w1, w2, w3⟩ := ieee_fromPoints (hp.rv.mono (by norm_num) (by norm_num)) hx (by norm_num) (by norm_num)
  obtain ⟨-, d1, d2⟩ := ieee_dot (by norm_num) z3 w3 (by norm_num) (by norm_num)
  obtain ⟨n1, -⟩ := ieee_norm (by norm_num) hv.rv (by norm_num) (by norm_num)
  have l1 := ((C96_constructors (by norm_num) p hv.moderate).1 hv0).2
  have l2 := ((C73_constructors std53 (by norm_num) p v).1 hv0).2
  refine ⟨_, by simp only [Cylinder.betweenCapPlanes, l2, Plane.distancePointSigned, Vec.scalarProjection, w1, z1, ok_bind, dot_rd, pure_ok,
    Cylinder.length, Vec.norm]; rfl, ?_⟩
  simp only [Cylinder.betweenCapPlanes, l1, Plane.distancePointSigned, Vec.scalarProjection, w2, z2, ok_bind, d1, pure_ok,
    Cylinder.length, Vec.norm, n1, ieee_zero, ieee_le]

/-- The intersection of a line with a cap plane. -/
theorem planeIntersect_ie {c v q d : E 3} (hc : RV 72 21 c) (hv : EverydayV v) (hq : EverydayV q) (hd : EverydayV d) :
    (∃ y : E 3, @Plane.intersectLine ℝ rn (@Tol.default ℝ rn) ⟨arr c, arr v⟩ ⟨arr q, arr d⟩ = .ok (arr y) ∧
      @Plane.intersectLine XReal ieee (@Tol.default XReal ieee) ⟨xarr c, xarr v⟩ ⟨xarr q, xarr d⟩ = .ok (xarr y) ∧ RV 361 260 y) ∨
    ∃ e, @Plane.intersectLine ℝ rn (@Tol.default ℝ rn) ⟨arr c, arr v⟩ ⟨arr q, arr d⟩ = .error (.valueError e) ∧
      @Plane.intersectLine XReal ieee (@Tol.default XReal ieee) ⟨xarr c, xarr v⟩ ⟨xarr q, xarr d⟩ = .error (.valueError e) := by
  classical
  obtain ⟨r, r1, r2, r3⟩ := ieee_tol
  obtain ⟨-, d1, d2⟩ := ieee_dot (by norm_num) hv.rv hd.rv (by norm_num) (by norm_num)
  obtain ⟨w, w1, w2, w3⟩ := ieee_fromPoints hc (hq.rv.mono (by norm_num) (by norm_num)) (by norm_num) (by norm_num)
  obtain ⟨-, c1, c2⟩ := ieee_dot (by norm_num) hv.rv w3 (by norm_num) (by norm_num)
  have hcl := isclose_zero_rd std53 (by norm_num) (@dotv ℝ rn (arr v) (arr d))
  have hcl' : @isclose XReal ieee (@Tol.default XReal ieee) (fin (@dotv ℝ rn (arr v) (arr d))) (@zero XReal ieee) =
      .ok (decide (@dotv ℝ rn (arr v) (arr d) = 0)) := by
    rw [r2, ieee_zero, zero_rd, ieee_isclose r3 d2 (Rng.zero _ _) (by norm_num) (by norm_num) (by norm_num) (by norm_num), ← r1,
      ← hcl, zero_rd]
  simp only [Plane.intersectLine, Vec.isPerpendicular, dot_rd, d1, ok_bind, hcl, hcl']
  by_cases h0 : @dotv ℝ rn (arr v) (arr d) = 0
  · right
    exact ⟨_, by simp only [h0, decide_true, if_true]; rfl, by simp only [h0, decide_true, if_true]⟩
  · left
    obtain ⟨q1, q2⟩ := ieee_div c2.neg d2 h0 (by norm_num) (by norm_num)
    obtain ⟨s, s1, s2, s3⟩ := ieee_smul q2 hd.rv (by norm_num) (by norm_num)
    obtain ⟨y, y1, y2, y3⟩ := ieee_vadd (hq.rv.mono (by norm_num) (by norm_num)) s3 (by norm_num) (by norm_num)
    refine ⟨y, ?_, ?_, y3.mono (by norm_num) (by norm_num)⟩
    · simp only [h0, decide_false, Bool.false_eq_true, if_false, w1, ok_bind, dot_rd, neg_rd, s1, y1]
    · simp only [h0, decide_false, Bool.false_eq_true, if_false, w2, ok_bind, c1, ieee_neg, neg_rd, q1, s2, y2]

/-- The intersection of a line with a cap. -/
theorem intersectCap_ie {p c v q d : E 3} {r : ℝ} (hc : RV 72 21 c) (hv : EverydayV v) (hq : EverydayV q) (hd : EverydayV d) :
    ∃ o : Option (E 3), @Cylinder.intersectCap ℝ rn ⟨arr p, arr v, r⟩ ⟨arr q, arr d⟩ ⟨arr c, arr v⟩ = .ok (o.map arr) ∧
      @Cylinder.intersectCap XReal ieee ⟨xarr p, xarr v, fin r⟩ ⟨xarr q, xarr d⟩ ⟨xarr c, xarr v⟩ = .ok (o.map xarr) := by
  rcases planeIntersect_ie hc hv hq hd with ⟨y, y1, y2, y3⟩ | ⟨e, e1, e2⟩
  · obtain ⟨t, t1, t2, t3⟩ := distancePoint_ie (by norm_num) y3 (hc.mono (by norm_num) (by norm_num)) (by norm_num) (by norm_num)
    by_cases h : @PyNum.le ℝ rn t r = true
    · exact ⟨some y, by simp only [Cylinder.intersectCap, y1, wrapped_rd, ok_bind, t1, pure_ok, h, if_true, Option.map_some],
        by simp only [Cylinder.intersectCap, y2, ieee_wrapped, ok_bind, t2, pure_ok, ieee_le, h, if_true, Option.map_some]⟩
    · exact ⟨none, by simp only [Cylinder.intersectCap, y1, wrapped_rd, ok_bind, t1, pure_ok, h, if_false, Option.map_none, Bool.false_eq_true],
        by simp only [Cylinder.intersectCap, y2, ieee_wrapped, ok_bind, t2, pure_ok, ieee_le, h, if_false, Option.map_none, Bool.false_eq_true]⟩
  · exact ⟨none, by simp only [Cylinder.intersectCap, e1, Option.map_none], by simp only [Cylinder.intersectCap, e2, Option.map_none]⟩

theorem intersectCaps_ie {p v q d : E 3} {r : ℝ} (hp : EverydayV p) (hv : EverydayV v) (hq : EverydayV q) (hd : EverydayV d) (hv0 : v ≠ 0) :
    ∃ o o' : Option (E 3), @Cylinder.intersectCaps ℝ rn ⟨arr p, arr v, r⟩ ⟨arr q, arr d⟩ = .ok (o.map arr, o'.map arr) ∧
      @Cylinder.intersectCaps XReal ieee ⟨xarr p, xarr v, fin r⟩ ⟨xarr q, xarr d⟩ = .ok (o.map xarr, o'.map xarr) := by
  obtain ⟨c, c1, c2, c3⟩ := ieee_vadd hp.rv hv.rv (by norm_num) (by norm_num)
  obtain ⟨o, o1, o2⟩ := intersectCap_ie (p := p) (r := r) (hp.rv.mono (by norm_num) (by norm_num)) hv hq hd
  obtain ⟨o', o1', o2'⟩ := intersectCap_ie (p := p) (r := r) (c3.mono (by norm_num) (by norm_num)) hv hq hd
  have k1 := fun x : E 3 => ((C96_constructors (by norm_num) x hv.moderate).1 hv0).2
  have k2 := fun x : E 3 => ((C73_constructors std53 (by norm_num) x v).1 hv0).2
  exact ⟨o, o', by simp only [Cylinder.intersectCaps, k2, ok_bind, c1, o1, o1', pure_ok],
    by simp only [Cylinder.intersectCaps, k1, ok_bind, c2, o2, o2', pure_ok]⟩

/-- `n_digits=0` is the same as no rounding of the coefficients. -/
theorem intersectLine_zero_digits {K : Type} [PyNum K] (C : Cylinder K) (L : Line K) {nd : Option Int} (hnd : nd = none ∨ nd = some 0) (inf : Bool) :
    Cylinder.intersectLine C L nd inf = Cylinder.intersectLine C L none inf := by
  rcases hnd with rfl | rfl <;> rfl

set_option maxHeartbeats 2000000 in
/-- **C125** `cylinder.intersect_line(line, infinite=...)` on everyday numbers: binary64 gives the same points, or the same
exception, as arithmetic with rounding to 53 digits and unbounded exponents. -/
theorem C125_cylinder_intersect_line {p v q d : E 3} {r : ℝ} (hp : EverydayV p) (hv : EverydayV v) (hr : Everyday r) (hq : EverydayV q)
    (hd : EverydayV d) (hr0 : 0 < r) (hv0 : v ≠ 0) (hd0 : d ≠ 0) {nd : Option Int} (hnd : nd = none ∨ nd = some 0) (inf : Bool) :
    @Cylinder.intersectLine XReal ieee ⟨xarr p, xarr v, fin r⟩ ⟨xarr q, xarr d⟩ nd inf =
      asPair (@Cylinder.intersectLine ℝ rn ⟨arr p, arr v, r⟩ ⟨arr q, arr d⟩ nd inf) := by
  rw [@intersectLine_zero_digits XReal ieee _ _ _ hnd, @intersectLine_zero_digits ℝ rn _ _ _ hnd]
  have hinf := intersectInfinite_ie hp hv hr hq hd hr0 hv0 hd0
  cases inf
  · simp only [Cylinder.intersectLine, Line.dimension, length_xarr, length_arr, ne_eq, not_true_eq_false, if_false, Bool.false_eq_true]
    obtain ⟨o, o', o1, o2⟩ := intersectCaps_ie (r := r) hp hv hq hd hv0
    simp only [Cylinder.intersectFinite, o1, o2, ok_bind]
    cases o with
    | some y =>
      cases o' with
      | some y' => simp only [Option.map_some, pure_ok, asPair_ok]
      | none =>
        simp only [Option.map_some, Option.map_none]
        rcases hinf with ⟨a, b, i1, i2, i3, i4⟩ | ⟨e, i1, i2⟩
        · obtain ⟨ba, a1, a2⟩ := betweenCapPlanes_ie (r := r) hp hv hv0 i3
          obtain ⟨bb, b1, b2⟩ := betweenCapPlanes_ie (r := r) hp hv hv0 i4
          simp only [i1, i2, ok_bind, a1, a2, b1, b2]
          cases ba <;> cases bb <;> simp only [if_true, if_false, Bool.false_eq_true, pure_ok, asPair_ok]
        · simp only [i1, i2, error_bind, asPair_error]
    | none =>
      cases o' with
      | some y' =>
        simp only [Option.map_some, Option.map_none]
        rcases hinf with ⟨a, b, i1, i2, i3, i4⟩ | ⟨e, i1, i2⟩
        · obtain ⟨ba, a1, a2⟩ := betweenCapPlanes_ie (r := r) hp hv hv0 i3
          obtain ⟨bb, b1, b2⟩ := betweenCapPlanes_ie (r := r) hp hv hv0 i4
          simp only [i1, i2, ok_bind, a1, a2, b1, b2]
          cases ba <;> cases bb <;> simp only [if_true, if_false, Bool.false_eq_true, pure_ok, asPair_ok]
        · simp only [i1, i2, error_bind, asPair_error]
      | none =>
        simp only [Option.map_none]
        rcases hinf with ⟨a, b, i1, i2, i3, i4⟩ | ⟨e, i1, i2⟩
        · obtain ⟨ba, a1, a2⟩ := betweenCapPlanes_ie (r := r) hp hv hv0 i3
          obtain ⟨bb, b1, b2⟩ := betweenCapPlanes_ie (r := r) hp hv hv0 i4
          simp only [i1, i2, ok_bind, a1, a2, b1, b2]
          cases ba <;> cases bb <;> simp only [if_true, if_false, Bool.false_eq_true, pure_ok, asPair_ok, asPair_error]
        · simp only [i1, i2, error_bind, asPair_error]
  · simp only [Cylinder.intersectLine, Line.dimension, length_xarr, length_arr, ne_eq, not_true_eq_false, if_false, if_true]
    rcases hinf with ⟨a, b, i1, i2, -, -⟩ | ⟨e, i1, i2⟩
    · rw [i1, i2, asPair_ok]
    · rw [i1, i2, asPair_error]

end SkSpatial
