import Verif.Props.Ieee5
import Verif.Props.Ieee6
/-! # C122: IEEE binary64 on coordinates of moderate size, further methods -/

namespace SkSpatial
open XReal StdRounding

variable {n : ℕ}

local notation "rn" => rounded (leftToRight (roundNearest 53))

/-! ### Wider ranges for the lemmas of C96 -/

theorem cosine_ie51 [NeZero n] (hn : n ≤ 2 ^ 53) {x y : E n} (hx : RV 102 51 x) (hy : RV 102 51 y) :
    (x ≠ 0 → y ≠ 0 → ∃ c, @Vec.cosineSimilarity ℝ rn (arr x) (arr y) = .ok c ∧
      @Vec.cosineSimilarity XReal ieee (xarr x) (xarr y) = .ok (fin c) ∧ Rng 420 0 c) ∧
    (x = 0 ∨ y = 0 → @Vec.cosineSimilarity XReal ieee (xarr x) (xarr y) = asFloat (@Vec.cosineSimilarity ℝ rn (arr x) (arr y))) := by
  classical
  obtain ⟨a1, a2⟩ := ieee_norm hn hx (by norm_num) (by norm_num)
  obtain ⟨b1, b2⟩ := ieee_norm hn hy (by norm_num) (by norm_num)
  obtain ⟨p1, p2⟩ := ieee_mul a2 b2 (by norm_num) (by norm_num)
  obtain ⟨-, d1, d2⟩ := ieee_dot hn hx hy (by norm_num) (by norm_num)
  constructor
  · intro hx0 hy0
    have hp : @PyNum.mul ℝ rn (@normv ℝ rn (arr x)) (@normv ℝ rn (arr y)) ≠ 0 := by
      rw [mul_rd]
      intro h0
      have := (std53.rp _).eq_zero.mp h0
      exact (mul_ne_zero (norm_pos_rn hx0) (norm_pos_rn hy0)) this
    obtain ⟨q1, q2⟩ := ieee_div d2 p2 hp (by norm_num) (by norm_num)
    obtain ⟨q, hq⟩ : ∃ q, q = @PyNum.div ℝ rn (@dotv ℝ rn (arr x) (arr y)) (@PyNum.mul ℝ rn (@normv ℝ rn (arr x)) (@normv ℝ rn (arr y))) :=
      ⟨_, rfl⟩
    refine ⟨@clip ℝ rn q (@PyNum.ofInt ℝ rn (-1)) (@one ℝ rn), ?_, ?_, ?_⟩
    · simp only [Vec.cosineSimilarity, new1D_rd, ok_bind, Vec.norm, eq_rd, zero_rd, hp, decide_false, Bool.false_eq_true, if_false,
        dot_rd, pure_ok, hq]
    · simp only [Vec.cosineSimilarity, ieee_new1D, ok_bind, Vec.norm, a1, b1, p1, ieee_zero, ieee_eq, eq_rd, zero_rd, hp, decide_false,
        Bool.false_eq_true, if_false, d1, q1, clip_ie, pure_ok, hq]
    · rw [clip_rn]
      rw [← hq] at q2
      refine ⟨?_, ?_⟩
      · rcases max_choice (-1 : ℝ) (min q 1) with h | h
        · rw [h]; exact (Rng.one.neg.mono (by norm_num) le_rfl : Rng 420 0 (-1)).1
        · rw [h]
          rcases min_choice q 1 with h | h
          · rw [h]; exact q2.1.mono (by norm_num)
          · rw [h]; exact (Rng.one.mono (by norm_num) le_rfl : Rng 420 0 1).1
      · rw [zpow_zero, abs_le]
        exact ⟨le_max_left _ _, max_le (by norm_num) (min_le_right _ _)⟩
  · intro h0
    have hp : @PyNum.mul ℝ rn (@normv ℝ rn (arr x)) (@normv ℝ rn (arr y)) = 0 := by
      have hz : ∀ {w : E n}, w = 0 → @normv ℝ rn (arr w) = 0 := fun {w} hw =>
        (std53.normv_rp le_rfl (CRP.refl _ w)).eq_zero.mpr (by simp [hw])
      rw [mul_rd]
      rcases h0 with h0 | h0 <;> simp [hz h0, roundNearest_zero]
    simp only [Vec.cosineSimilarity, ieee_new1D, new1D_rd, ok_bind, Vec.norm, a1, b1, p1, ieee_zero, ieee_eq, eq_rd, zero_rd, hp,
      decide_true, if_true, asFloat_error]

theorem cosine_zero_rn [NeZero n] {x y : E n} (h : x = 0 ∨ y = 0) :
    @Vec.cosineSimilarity ℝ rn (arr x) (arr y) = .error (.valueError "The vectors must have non-zero magnitudes.") := by
  classical
  have hz : ∀ {w : E n}, w = 0 → @normv ℝ rn (arr w) = 0 := fun {w} hw =>
    (std53.normv_rp le_rfl (CRP.refl _ w)).eq_zero.mpr (by simp [hw])
  rcases h with h | h <;>
  simp [Vec.cosineSimilarity, new1D_rd, Vec.norm, mul_rd, eq_rd, zero_rd, hz h, roundNearest_zero]

/-- The error of one binary64 rounding below the overflow threshold. -/
theorem roundFloat_err (x : ℝ) : |roundFloat x - x| ≤ (2 : ℝ) ^ (-53 : ℤ) * |x| + (2 : ℝ) ^ (-1075 : ℤ) := by
  by_cases hx : x = 0
  · rw [hx, roundFloat_zero]; simp
  unfold roundFloat
  obtain ⟨k, hk⟩ : ∃ k, k = min (52 - Int.log 2 |x|) 1074 := ⟨_, rfl⟩
  rw [← hk]
  have hp : (0 : ℝ) < (2 : ℝ) ^ k := by positivity
  have h1 : |rintReal (x * (2 : ℝ) ^ k) / (2 : ℝ) ^ k - x| ≤ (2 : ℝ) ^ (-k - 1) := by
    have h2 : |rintReal (x * (2 : ℝ) ^ k) - x * (2 : ℝ) ^ k| ≤ 1 / 2 := by
      obtain ⟨m, e1, e2, -⟩ := rintReal_spec (x * (2 : ℝ) ^ k)
      rw [e1]; exact e2
    rw [show rintReal (x * (2 : ℝ) ^ k) / (2 : ℝ) ^ k - x = (rintReal (x * (2 : ℝ) ^ k) - x * (2 : ℝ) ^ k) / (2 : ℝ) ^ k by field_simp,
      abs_div, abs_of_pos hp, div_le_iff₀ hp, ← zpow_add₀ (by norm_num)]
    refine h2.trans ?_
    rw [show -k - 1 + k = -1 by ring]; norm_num
  refine h1.trans ?_
  rcases le_total (52 - Int.log 2 |x|) 1074 with h | h
  · rw [min_eq_left h] at hk
    have h0 : (0 : ℝ) ≤ (2 : ℝ) ^ (-1075 : ℤ) := by positivity
    have h3 : (2 : ℝ) ^ (Int.log 2 |x|) ≤ |x| := by
      have := Int.zpow_log_le_self (b := 2) (r := |x|) (by norm_num) (abs_pos.mpr hx)
      exact_mod_cast this
    have : (2 : ℝ) ^ (-k - 1) = (2 : ℝ) ^ (-53 : ℤ) * (2 : ℝ) ^ (Int.log 2 |x|) := by
      rw [← zpow_add₀ (by norm_num), hk]; congr 1; ring
    rw [this]
    have := mul_le_mul_of_nonneg_left h3 (by positivity : (0 : ℝ) ≤ (2 : ℝ) ^ (-53 : ℤ))
    linarith
  · rw [min_eq_right h] at hk
    rw [hk, show (-1074 - 1 : ℤ) = -1075 by norm_num]
    have : (0 : ℝ) ≤ (2 : ℝ) ^ (-53 : ℤ) * |x| := by positivity
    linarith

private theorem arith1 {a b c w p p' q : ℝ} (hp : b ≤ c / 4) (e : w ≤ p * b + q) (e4 : q ≤ p' * c) (e5 : p ≤ 1 / 100) (e6 : p' ≤ 1 / 100) (t : a - b ≤ w) (hb : 0 ≤ b)
    (hc : 0 ≤ c) : a ≤ c / 2 := by
  have t2 : p * b ≤ 1 / 100 * b := mul_le_mul_of_nonneg_right e5 hb
  have t3 : p' * c ≤ 1 / 100 * c := mul_le_mul_of_nonneg_right e6 hc
  linarith

private theorem arith2 {a d p q : ℝ} (h : a ≤ d / 2) (h2 : d ≤ p) (h3 : p < q) (hd : 0 ≤ d) : a < q := by linarith

private theorem arith3 {a d p : ℝ} (h : (1 - p) * d ≤ a) (hp : p ≤ 1 / 100) (hd : 0 < d) : d / 2 < a := by nlinarith

/-- `x.is_zero()`-like tests with the default tolerance are exact, even where the tolerance times the value underflows. -/
theorem isclose_default_zero_ie {d : ℝ} (h : Rng 1060 1000 d) :
    @isclose XReal ieee (@Tol.default XReal ieee) (fin d) (@zero XReal ieee) = .ok (@decide (d = 0) (Classical.propDecidable _)) := by
  classical
  obtain ⟨r, r0, r1, r2, r3⟩ := ieee_tol'
  have hr : r ≤ 1 / 4 := by
    rw [tolDefault_rd] at r1
    have h1 : roundNearest 53 (1 / 1000000000) = r := congrArg Tol.rel r1
    have h2 := std53.err (1 / 1000000000)
    have h3 : (leftToRight (roundNearest 53)).fl (1 / 1000000000) = r := h1
    rw [h3, abs_le] at h2
    norm_num at h2 ⊢
    linarith [h2.2]
  rw [r2]
  have hlt : @PyNum.lt XReal ieee (fin r) (fin 0) = false := by
    rw [ieee_lt, lt_rd, decide_eq_false (not_lt.mpr r0)]
  have hlt' : @PyNum.lt XReal ieee (fin 0) (fin 0) = false := by
    rw [ieee_lt, lt_rd, decide_eq_false (lt_irrefl _)]
  have hz : @zero XReal ieee = fin 0 := by rw [ieee_zero, zero_rd]
  have heq : @PyNum.eq XReal ieee (fin d) (fin 0) = decide (d = 0) := by rw [ieee_eq, eq_rd]
  by_cases h0 : d = 0
  · simp only [isclose, ieee_toFloat, hlt, hlt', hz, heq, decide_eq_true h0, Bool.or_self, Bool.false_eq_true, if_false, if_true]
  · have hd := h.1.le_abs h0
    have hs := (ieee_sub (Rng.zero 1060 1000) h (by norm_num) (by norm_num)).1
    have hm0 := (ieee_mul r3 (Rng.zero 0 0) (by norm_num) (by norm_num)).1
    have hmd : ∃ z, @PyNum.mul XReal ieee (fin r) (fin d) = fin z ∧ |z| ≤ |d| / 2 := by
      have e := roundFloat_err (r * d)
      have hp : |r * d| ≤ |d| / 4 := by rw [abs_mul, abs_of_nonneg r0]; nlinarith [abs_nonneg d]
      have e3 : (2 : ℝ) ^ (-1075 : ℤ) = (2 : ℝ) ^ (-15 : ℤ) * (2 : ℝ) ^ (-1060 : ℤ) := by rw [← zpow_add₀ (by norm_num)]; norm_num
      have e4 : (2 : ℝ) ^ (-1075 : ℤ) ≤ (2 : ℝ) ^ (-15 : ℤ) * |d| := by
        rw [e3]; exact mul_le_mul_of_nonneg_left hd (by positivity)
      have e5 : (2 : ℝ) ^ (-53 : ℤ) ≤ 1 / 100 := by norm_num
      have e6 : |roundFloat (r * d)| ≤ |d| / 2 := by
        exact arith1 hp e e4 e5 (by norm_num) (abs_sub_abs_le_abs_sub (roundFloat (r * d)) (r * d)) (abs_nonneg _) (abs_nonneg _)
      refine ⟨roundFloat (r * d), ?_, e6⟩
      show binary64 (fin (r * d)) = _
      have hb : |roundFloat (r * d)| < 2 ^ 1024 := by
        have h2 : |d| ≤ (2 : ℝ) ^ (1000 : ℤ) := h.2
        have h3 : (2 : ℝ) ^ (1000 : ℤ) < 2 ^ 1024 := by
          rw [← zpow_natCast]; exact zpow_lt_zpow_right₀ (by norm_num) (by norm_num)
        exact arith2 e6 h2 h3 (abs_nonneg d)
      obtain ⟨b1, b2⟩ := abs_lt.mp hb
      simp only [binary64]
      rw [if_neg (not_le.mpr b2), if_neg (not_le.mpr b1)]
    obtain ⟨z, hz1, hz2⟩ := hmd
    have hdiff : (1 - (2 : ℝ) ^ (-53 : ℤ)) * |d| ≤ |@PyNum.sub ℝ rn 0 d| := by
      rw [sub_rd, zero_sub]
      have := le_abs_fl std53 (-d)
      rw [abs_neg] at this
      exact_mod_cast this
    have hpos : 0 < |d| := abs_pos.mpr h0
    have e5 : (2 : ℝ) ^ (-53 : ℤ) ≤ 1 / 100 := by norm_num
    have hbig : |d| / 2 < |@PyNum.sub ℝ rn 0 d| := arith3 hdiff e5 hpos
    have hz0 : @PyNum.mul ℝ rn r 0 = 0 := by rw [mul_rd, mul_zero]; exact roundNearest_zero
    have n1 : ¬ |@PyNum.sub ℝ rn 0 d| ≤ 0 := by linarith
    have n2 : ¬ |@PyNum.sub ℝ rn 0 d| ≤ |z| := by linarith
    simp only [isclose, ieee_toFloat, hlt, hlt', hz, heq, h0, Bool.or_self, Bool.false_eq_true, if_false, decide_false, ieee_isFinite,
      Bool.not_true, Bool.false_and, hs, hm0, hz1, hz0, ieee_abs, abs_rd, ieee_le, le_rd, abs_zero, n1, n2]

/-- `is_zero()` on vectors of a wide range. -/
theorem isZero_wide_ie (hn : n ≤ 2 ^ 53) {v : E n} (hv : RV 530 470 v) :
    @Vec.isZero XReal ieee (@Tol.default XReal ieee) (xarr v) = .ok (@decide (v = 0) (Classical.propDecidable _)) := by
  classical
  obtain ⟨-, e1, e2⟩ := ieee_dot hn hv hv (by norm_num) (by norm_num)
  simp only [Vec.isZero, e1, ok_bind, isclose_default_zero_ie (e2.mono (by norm_num) (by norm_num))]
  have : @dotv ℝ rn (arr v) (arr v) = 0 ↔ v = 0 := by
    rw [(std53.dotv_self_rp le_rfl (CRP.refl _ v)).eq_zero, sq_eq_zero_iff, norm_eq_zero]
  simp only [Except.ok.injEq, decide_eq_decide, this]

@[simp] theorem asLine_ok (p v : E n) : asLine (.ok ⟨arr p, arr v⟩) = .ok ⟨xarr p, xarr v⟩ := rfl
@[simp] theorem asLine_error (e : Err) : asLine (.error e) = .error e := rfl

theorem line_new_wide [NeZero n] (hn : n ≤ 2 ^ 53) (p : E n) {v : E n} (hv : RV 530 470 v) :
    (v ≠ 0 → @Line.new ℝ rn (arr p) (arr v) = .ok ⟨arr p, arr v⟩ ∧ @Line.new XReal ieee (xarr p) (xarr v) = .ok ⟨xarr p, xarr v⟩ ∧
      @Plane.new ℝ rn (arr p) (arr v) = .ok ⟨arr p, arr v⟩ ∧ @Plane.new XReal ieee (xarr p) (xarr v) = .ok ⟨xarr p, xarr v⟩) ∧
    (v = 0 → @Line.new ℝ rn (arr p) (arr v) = .error (.valueError "The vector must not be the zero vector.") ∧
      @Line.new XReal ieee (xarr p) (xarr v) = .error (.valueError "The vector must not be the zero vector.") ∧
      @Plane.new ℝ rn (arr p) (arr v) = .error (.valueError "The vector must not be the zero vector.") ∧
      @Plane.new XReal ieee (xarr p) (xarr v) = .error (.valueError "The vector must not be the zero vector.")) := by
  classical
  have hz := isZero_wide_ie hn hv
  constructor <;> intro h0
  · refine ⟨((C73_constructors std53 (by norm_num) p v).1 h0).1, ?_, ((C73_constructors std53 (by norm_num) p v).1 h0).2, ?_⟩ <;>
    simp [Line.new, Plane.new, newLinePlane, ieee_new1D, hz, h0]
  · have hz : @Vec.isZero XReal ieee (@Tol.default XReal ieee) (xarr v) = .ok true := by rw [hz]; congr 1; exact @decide_eq_true _ (Classical.propDecidable _) h0
    refine ⟨((C73_constructors std53 (by norm_num) p v).2 h0).1, ?_, ((C73_constructors std53 (by norm_num) p v).2 h0).2, ?_⟩ <;>
    simp [Line.new, Plane.new, newLinePlane, ieee_new1D, hz]

/-- `Line.from_points(a, b)`. -/
theorem lineFromPoints_ie [NeZero n] (hn : n ≤ 2 ^ 53) {m M : ℤ} {a b : E n} (ha : RV m M a) (hb : RV m M b) (hm : m ≤ 530) (hM : M ≤ 469) :
    (∃ v : E n, v ≠ 0 ∧ RV m (M + 1) v ∧ @Line.fromPoints ℝ rn (arr a) (arr b) = .ok ⟨arr a, arr v⟩ ∧
      @Line.fromPoints XReal ieee (xarr a) (xarr b) = .ok ⟨xarr a, xarr v⟩) ∨
    ∃ e, @Line.fromPoints ℝ rn (arr a) (arr b) = .error e ∧ @Line.fromPoints XReal ieee (xarr a) (xarr b) = .error e := by
  obtain ⟨v, v1, v2, v3⟩ := ieee_fromPoints ha hb (by omega) (by omega)
  obtain ⟨w1, w2⟩ := line_new_wide hn a (v3.mono hm (by omega : M + 1 ≤ 470))
  by_cases h0 : v = 0
  · right
    refine ⟨.valueError "The vector must not be the zero vector.", ?_, ?_⟩
    · simp only [Line.fromPoints, v1, ok_bind]; exact (w2 h0).1
    · simp only [Line.fromPoints, v2, ok_bind]; exact (w2 h0).2.1
  · left
    refine ⟨v, h0, v3, ?_, ?_⟩
    · simp only [Line.fromPoints, v1, ok_bind]; exact (w1 h0).1
    · simp only [Line.fromPoints, v2, ok_bind]; exact (w1 h0).2.1

/-! ### Segments -/

theorem mapM_congr_map {α β γ : Type} (g : α → β) {f : α → Res γ} {f' : β → Res γ} : ∀ l : List α, (∀ a ∈ l, f' (g a) = f a) →
    (l.map g).mapM f' = l.mapM f
  | [], _ => rfl
  | a :: l, h => by
    rw [List.map_cons, List.mapM_cons, List.mapM_cons, h a (by simp), mapM_congr_map g l fun b hb => h b (by simp [hb])]

theorem arrIsClose_ie {a b : E n} (ha : ModerateV a) (hb : ModerateV b) :
    @arrIsClose XReal ieee (@Tol.default XReal ieee) (xarr a) (xarr b) = @arrIsClose ℝ rn (@Tol.default ℝ rn) (arr a) (arr b) := by
  obtain ⟨r, r1, r2, r3⟩ := ieee_tol
  simp only [arrIsClose, broadcastPairs, length_xarr, length_arr, if_true, ok_bind]
  rw [xarr, xarr, List.zip_map, mapM_congr_map]
  intro p hp
  obtain ⟨i, hi, rfl⟩ := List.mem_iff_getElem.mp hp
  have hi' : i < n := by simpa using hi
  have e : (List.zip (arr a) (arr b))[i] = (a ⟨i, hi'⟩, b ⟨i, hi'⟩) := by simp [arr]
  rw [e, r1, r2]
  exact ieee_isclose r3 (ha _).rng (hb _).rng (by norm_num) (by norm_num) (by norm_num) (by norm_num)

/-- C122: `LineSegment(a, b)` and `segment.contains_point(x)`. -/
theorem C122_segment [NeZero n] (hn : n ≤ 2 ^ 53) {a b x : E n} (ha : ModerateV a) (hb : ModerateV b) (hx : ModerateV x) :
    @LineSegment.new XReal ieee (xarr a) (xarr b) = asSegment (@LineSegment.new ℝ rn (arr a) (arr b)) ∧
    ∀ r s : ℝ, Moderate r → @LineSegment.containsPoint XReal ieee ⟨fin r, fin s⟩ ⟨xarr a, xarr b⟩ (xarr x) =
      @LineSegment.containsPoint ℝ rn ⟨r, s⟩ ⟨arr a, arr b⟩ (arr x) := by
  refine ⟨?_, fun r s hr => ?_⟩
  · simp only [LineSegment.new, ieee_new1D, new1D_rd, ok_bind, arrIsClose_ie ha hb]
    cases @arrIsClose ℝ rn (@Tol.default ℝ rn) (arr a) (arr b) with
    | error e => rfl
    | ok c => cases c <;> rfl
  · obtain ⟨v, v1, v2, v3⟩ := fromPoints_ie hx ha
    obtain ⟨w, w1, w2, w3⟩ := fromPoints_ie hx hb
    have z1 := isZero_ie (s := s) hn v3 hr.rng (by norm_num) (by norm_num) (by norm_num) (by norm_num)
    have z2 := isZero_ie (s := s) hn w3 hr.rng (by norm_num) (by norm_num) (by norm_num) (by norm_num)
    simp only [LineSegment.containsPoint, v1, v2, w1, w2, ok_bind, z1, z2]
    congr 1; funext za
    congr 1; funext z
    cases z
    · simp only [Bool.false_eq_true, if_false]
      by_cases h0 : v ≠ 0 ∧ w ≠ 0
      · obtain ⟨c, e1, e2, e3⟩ := (cosine_ie51 hn v3 w3).1 h0.1 h0.2
        rw [e1, e2, ok_bind, ok_bind, show @PyNum.ofInt XReal ieee (-1) = fin (@PyNum.ofInt ℝ rn (-1)) from rfl]
        refine ieee_isclose hr.rng e3 ?_ (by norm_num) (by norm_num) (by norm_num) (by norm_num)
        rw [ofInt_rd]
        simpa using (Rng.one.neg.mono (by norm_num) le_rfl : Rng 420 0 (-1))
      · have h0' : v = 0 ∨ w = 0 := by
          by_contra h; exact h0 ⟨fun h1 => h (.inl h1), fun h1 => h (.inr h1)⟩
        rw [(cosine_ie51 hn v3 w3).2 h0', cosine_zero_rn h0']
        rfl
    · rfl

/-! ### Lines and planes -/

/-- The parallelism test for differences of moderate points. -/
theorem isParallel_ie51 [NeZero n] (hn : n ≤ 2 ^ 53) {x y : E n} (hx : RV 102 51 x) (hy : RV 102 51 y) {r s : ℝ} (hr : Moderate r) :
    @Vec.isParallel XReal ieee ⟨fin r, fin s⟩ (xarr x) (xarr y) = @Vec.isParallel ℝ rn ⟨r, s⟩ (arr x) (arr y) := by
  have z1 := isZero_ie (s := s) hn hx hr.rng (by norm_num) (by norm_num) (by norm_num) (by norm_num)
  have z2 := isZero_ie (s := s) hn hy hr.rng (by norm_num) (by norm_num) (by norm_num) (by norm_num)
  simp only [Vec.isParallel, z1, ieee_new1D, new1D_rd, ok_bind, z2]
  congr 1; funext z
  cases z
  · simp only [Bool.false_eq_true, if_false]
    by_cases h0 : x ≠ 0 ∧ y ≠ 0
    · obtain ⟨c, e1, e2, e3⟩ := (cosine_ie51 hn hx hy).1 h0.1 h0.2
      rw [e1, e2, ok_bind, ok_bind, ieee_abs, ieee_one, one_rd, abs_rd]
      exact ieee_isclose hr.rng e3.abs (Rng.one.mono (by norm_num) (by norm_num)) (by norm_num) (by norm_num) (by norm_num)
        (by norm_num)
    · have h0' : x = 0 ∨ y = 0 := by
        by_contra h; exact h0 ⟨fun h1 => h (.inl h1), fun h1 => h (.inr h1)⟩
      rw [(cosine_ie51 hn hx hy).2 h0', cosine_zero_rn h0']
      rfl
  · rfl

/-- Projection onto a plane of a point of a slightly wider range. -/
theorem planeProject_ie51 [NeZero n] (hn : n ≤ 2 ^ 53) {p v x : E n} (hp : RV 102 50 p) (hv : RV 102 50 v) (hx : RV 102 51 x) (hv0 : v ≠ 0) :
    ∃ q : E n, @Plane.projectPoint ℝ rn ⟨arr p, arr v⟩ (arr x) = .ok (arr q) ∧
      @Plane.projectPoint XReal ieee ⟨xarr p, xarr v⟩ (xarr x) = .ok (xarr q) ∧ RV 511 410 q := by
  obtain ⟨w, w1, w2, w3⟩ := ieee_fromPoints hx (hp.mono le_rfl (by norm_num)) (by norm_num) (by norm_num)
  obtain ⟨z, z1, z2, z3⟩ := projectVector_ie hn hv w3 hv0 (by norm_num) (by norm_num) (by norm_num) (by norm_num)
      (by norm_num) (by norm_num) (by norm_num) (by norm_num)
  obtain ⟨q, q1, q2, q3⟩ := ieee_vadd (hx.mono (by norm_num) (by norm_num)) z3 (by norm_num) (by norm_num)
  refine ⟨q, ?_, ?_, q3.mono (by norm_num) (by norm_num)⟩
  · simp only [Plane.projectPoint, w1, ok_bind, z1, new1D_rd, q1]
  · simp only [Plane.projectPoint, w2, ok_bind, z2, ieee_new1D, q2]

theorem planeVector_ie [NeZero n] (hn : n ≤ 2 ^ 53) {p v x : E n} (hp : ModerateV p) (hv : ModerateV v) (hx : ModerateV x) (hv0 : v ≠ 0) :
    ∃ q : E n, @Plane.projectVector ℝ rn ⟨arr p, arr v⟩ (arr x) = .ok (arr q) ∧
      @Plane.projectVector XReal ieee ⟨xarr p, xarr v⟩ (xarr x) = .ok (xarr q) ∧ RV 511 411 q := by
  obtain ⟨y, y1, y2, y3⟩ := ieee_vadd hp.rv hx.rv (by norm_num) (by norm_num)
  obtain ⟨q, q1, q2, q3⟩ := planeProject_ie51 hn hp.rv hv.rv y3 hv0
  obtain ⟨w, w1, w2, w3⟩ := ieee_fromPoints (hp.rv.mono (by norm_num) (by norm_num)) q3 (by norm_num) (by norm_num)
  refine ⟨w, ?_, ?_, w3⟩
  · simp only [Plane.projectVector, y1, ok_bind, q1, w1]
  · simp only [Plane.projectVector, y2, ok_bind, q2, w2]

/-- C122: further methods of lines. -/
theorem C122_line [NeZero n] (hn : n ≤ 2 ^ 53) {p v q w : E n} (hp : ModerateV p) (hv : ModerateV v) (hq : ModerateV q) (hw : ModerateV w)
    (hv0 : v ≠ 0) :
    @Line.fromPoints XReal ieee (xarr p) (xarr q) = asLine (@Line.fromPoints ℝ rn (arr p) (arr q)) ∧
    (∀ t, Moderate t → @Line.toPoint XReal ieee ⟨xarr p, xarr v⟩ (fin t) = asFloats (@Line.toPoint ℝ rn ⟨arr p, arr v⟩ t)) ∧
    ∀ r s : ℝ, Moderate r →
      @Line.isClose XReal ieee ⟨fin r, fin s⟩ ⟨xarr p, xarr v⟩ (.line ⟨xarr q, xarr w⟩) =
        @Line.isClose ℝ rn ⟨r, s⟩ ⟨arr p, arr v⟩ (.line ⟨arr q, arr w⟩) := by
  refine ⟨?_, fun t ht => ?_, fun r s hr => ?_⟩
  · rcases lineFromPoints_ie hn hp.rv hq.rv (by norm_num) (by norm_num) with ⟨z, -, -, e1, e2⟩ | ⟨e, e1, e2⟩
    · rw [e1, e2, asLine_ok]
    · rw [e1, e2, asLine_error]
  · obtain ⟨y, y1, y2, y3⟩ := ieee_smul ht.rng hv.rv (by norm_num) (by norm_num)
    obtain ⟨z, z1, z2, -⟩ := ieee_vadd (hp.rv.mono (by norm_num) (by norm_num)) y3 (by norm_num) (by norm_num)
    simp only [Line.toPoint, y1, y2, z1, z2, asFloats_ok]
  · simp only [Line.isClose, ((C96_line hn hp hv hq hv0).2.2 r s hr), (C96_angles hn hv hw).2.2 r s hr]

/-- C122: further methods of planes. -/
theorem C122_plane [NeZero n] (hn : n ≤ 2 ^ 53) {p v q w : E n} (hp : ModerateV p) (hv : ModerateV v) (hq : ModerateV q) (hw : ModerateV w)
    (hv0 : v ≠ 0) :
    @Plane.projectVector XReal ieee ⟨xarr p, xarr v⟩ (xarr w) = asFloats (@Plane.projectVector ℝ rn ⟨arr p, arr v⟩ (arr w)) ∧
    ∀ r s : ℝ, Moderate r →
      @Plane.isClose XReal ieee ⟨fin r, fin s⟩ ⟨xarr p, xarr v⟩ (.plane ⟨xarr q, xarr w⟩) =
        @Plane.isClose ℝ rn ⟨r, s⟩ ⟨arr p, arr v⟩ (.plane ⟨arr q, arr w⟩) ∧
      @Plane.projectLine XReal ieee ⟨fin r, fin s⟩ ⟨xarr p, xarr v⟩ ⟨xarr q, xarr w⟩ =
        asLine (@Plane.projectLine ℝ rn ⟨r, s⟩ ⟨arr p, arr v⟩ ⟨arr q, arr w⟩) := by
  obtain ⟨z, z1, z2, z3⟩ := planeVector_ie hn hp hv hw hv0
  refine ⟨by rw [z1, z2, asFloats_ok], fun r s hr => ⟨?_, ?_⟩⟩
  · simp only [Plane.isClose, ((C96_plane hn hp hv hq hv0).2.2.2.2 r s hr), (C96_angles hn hv hw).2.2 r s hr]
  · obtain ⟨y, y1, y2, y3⟩ := planeProject_ie51 hn hp.rv hv.rv (hq.rv.mono le_rfl (by norm_num)) hv0
    have new : ∀ d : E n, RV 511 411 d → @Line.new XReal ieee (xarr y) (xarr d) = asLine (@Line.new ℝ rn (arr y) (arr d)) := by
      intro d hd
      obtain ⟨g1, g2⟩ := line_new_wide hn y (hd.mono (by norm_num) (by norm_num : (411 : ℤ) ≤ 470))
      by_cases h0 : d = 0
      · rw [(g2 h0).1, (g2 h0).2.1, asLine_error]
      · rw [(g1 h0).1, (g1 h0).2.1, asLine_ok]
    have n1 := new z z3
    have n2 := new w (hw.rv.mono (by norm_num) (by norm_num))
    simp only [Plane.projectLine, (C96_angles hn hv hw).2.2 r s hr, y1, y2, ok_bind, ((C96_vector hn hv hw).2.2.2.2.2.2.2 r s hr).2]
    cases @Vec.isParallel ℝ rn ⟨r, s⟩ (arr v) (arr w) with
    | error e => rfl
    | ok b =>
      cases b
      · simp only [ok_bind, Bool.false_eq_true, if_false]
        cases @Vec.isPerpendicular ℝ rn ⟨r, s⟩ (arr v) (arr w) with
        | error e => rfl
        | ok b =>
          cases b
          · simp only [ok_bind, Bool.false_eq_true, if_false, z1, z2, n1]
          · simp only [ok_bind, if_true, n2]
      · rfl

end SkSpatial
