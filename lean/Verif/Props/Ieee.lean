import Verif.Lemmas.Ieee
import Verif.Props.Rounding13
/-! # C96: IEEE binary64 with overflow and underflow, on coordinates of moderate size -/

namespace SkSpatial
open XReal StdRounding

variable {n : ℕ}

/-- 53-bit rounding with unbounded exponents. -/
local notation "rn" => rounded (leftToRight (roundNearest 53))

theorem ModerateV.rv {x : E n} (h : ModerateV x) : RV 102 50 x := fun i => (h i).rng

@[simp] theorem asFloat_ok (x : ℝ) : asFloat (.ok x) = .ok (fin x) := rfl
@[simp] theorem asFloats_ok (x : E n) : asFloats (.ok (arr x)) = .ok (xarr x) := rfl
@[simp] theorem asFloat_error (e : Err) : asFloat (.error e) = .error e := rfl
@[simp] theorem asFloats_error (e : Err) : asFloats (.error e) = .error e := rfl

theorem norm_pos_rn {x : E n} (hx : x ≠ 0) : @normv ℝ rn (arr x) ≠ 0 := fun h0 =>
  hx (norm_eq_zero.mp ((std53.normv_rp le_rfl (CRP.refl _ x)).eq_zero.mp h0))

theorem unit_ie {m M : ℤ} {x : E n} (hn : n ≤ 2 ^ 53) (hx : RV m M x) (hm : 2 * m ≤ 1022) (hM : 2 * M + 54 ≤ 1023)
    (h1 : m + M + 27 ≤ 1022) (h2 : M + m + 52 ≤ 1023) (hx0 : x ≠ 0) :
    ∃ z : E n, @Vec.unit ℝ rn (arr x) = .ok (arr z) ∧ @Vec.unit XReal ieee (xarr x) = .ok (xarr z) ∧
      RV (m + M + 79) (M + m + 52) z := by
  classical
  obtain ⟨e1, e2⟩ := ieee_norm hn hx hm hM
  obtain ⟨z, f1, f2, f3⟩ := ieee_sdiv e2 (norm_pos_rn hx0) hx (by omega) (by omega)
  refine ⟨z, ?_, ?_, f3.mono (by omega) (by omega)⟩
  · simp only [Vec.unit, Vec.norm, eq_rd, zero_rd, norm_pos_rn hx0, decide_false, Bool.false_eq_true, if_false, f1]
  · simp only [Vec.unit, Vec.norm, e1, ieee_zero, ieee_eq, eq_rd, zero_rd, norm_pos_rn hx0, decide_false, Bool.false_eq_true,
      if_false, f2]

theorem isZero_ie {m M m' M' : ℤ} {x : E n} {r s : ℝ} (hn : n ≤ 2 ^ 53) (hx : RV m M x) (hr : Rng m' M' r) (hm : 2 * m ≤ 1022)
    (hM : 2 * M + 54 ≤ 1023) (hm' : m' + 2 * m ≤ 1074) (hM' : M' + 2 * M + 53 ≤ 1023) :
    @Vec.isZero XReal ieee ⟨fin r, fin s⟩ (xarr x) = @Vec.isZero ℝ rn ⟨r, s⟩ (arr x) := by
  obtain ⟨-, e1, e2⟩ := ieee_dot hn hx hx (by omega) (by omega)
  simp only [Vec.isZero, dot_rd, e1, ok_bind, ieee_zero, zero_rd]
  exact ieee_isclose hr e2 (Rng.zero _ _) (by omega) (by omega) (by omega) (by omega)

theorem fromPoints_ie [NeZero n] {x y : E n} (hx : ModerateV x) (hy : ModerateV y) :
    ∃ z : E n, @Vec.fromPoints ℝ rn (arr x) (arr y) = .ok (arr z) ∧
      @Vec.fromPoints XReal ieee (xarr x) (xarr y) = .ok (xarr z) ∧ RV 102 51 z :=
  ieee_fromPoints hx.rv hy.rv (by norm_num) (by norm_num)

theorem projectVector_ie {m M m' M' : ℤ} {x y : E n} (hn : n ≤ 2 ^ 53) (hx : RV m M x) (hy : RV m' M' y) (hx0 : x ≠ 0)
    (h1 : 2 * m ≤ 1022) (h2 : 2 * M + 54 ≤ 1023) (h3 : m + m' ≤ 1022) (h4 : M + M' + 54 ≤ 1023)
    (h5 : m + m' + (2 * M + 53) ≤ 1022) (h6 : M + M' + 53 + 2 * m ≤ 1023)
    (h7 : 2 * m + m' + 2 * M + 105 ≤ 1074) (h8 : 2 * M + M' + 53 + 2 * m ≤ 1023) :
    ∃ z : E n, @Vec.projectVector ℝ rn (arr x) (arr y) = .ok (arr z) ∧
      @Vec.projectVector XReal ieee (xarr x) (xarr y) = .ok (xarr z) ∧
      RV (2 * m + m' + 2 * M + 105) (2 * M + M' + 53 + 2 * m) z := by
  obtain ⟨-, d1, d2⟩ := ieee_dot hn hx hy (by omega) (by omega)
  obtain ⟨-, v1, v2⟩ := ieee_dot hn hx hx (by omega) (by omega)
  have hv : @dotv ℝ rn (arr x) (arr x) ≠ 0 := fun h0 =>
    hx0 (norm_eq_zero.mp (pow_eq_zero_iff two_ne_zero |>.mp ((std53.dotv_self_rp le_rfl (CRP.refl _ x)).eq_zero.mp h0)))
  obtain ⟨q1, q2⟩ := ieee_div d2 v2 hv (by omega) (by omega)
  obtain ⟨z, z1, z2, z3⟩ := ieee_smul q2 hx (by omega) (by omega)
  refine ⟨z, ?_, ?_, z3.mono (by omega) (by omega)⟩
  · simp only [Vec.projectVector, dot_rd, ok_bind, pure_ok, z1]
  · simp only [Vec.projectVector, d1, v1, ok_bind, pure_ok, q1, z2]

theorem scalarProjection_ie {x y : E n} (hn : n ≤ 2 ^ 53) (hx : RV 102 50 x) (hy : RV 102 51 y) (hx0 : x ≠ 0) :
    ∃ s, @Vec.scalarProjection ℝ rn (arr x) (arr y) = .ok s ∧
      @Vec.scalarProjection XReal ieee (xarr x) (xarr y) = .ok (fin s) ∧ Rng 333 308 s := by
  obtain ⟨z, z1, z2, z3⟩ := unit_ie hn hx (by norm_num) (by norm_num) (by norm_num) (by norm_num) hx0
  obtain ⟨-, d1, d2⟩ := ieee_dot hn z3 hy (by norm_num) (by norm_num)
  refine ⟨_, ?_, ?_, d2.mono (by norm_num) (by norm_num)⟩
  · simp only [Vec.scalarProjection, z1, ok_bind, dot_rd]
  · simp only [Vec.scalarProjection, z2, ok_bind, d1]

theorem distancePoint_ie [NeZero n] {m M : ℤ} {x y : E n} (hn : n ≤ 2 ^ 53) (hx : RV m M x) (hy : RV m M y) (hm : 2 * m ≤ 1022)
    (hM : 2 * M + 56 ≤ 1023) :
    ∃ d, @Pt.distancePoint ℝ rn (arr x) (arr y) = .ok d ∧ @Pt.distancePoint XReal ieee (xarr x) (xarr y) = .ok (fin d) ∧
      Rng (m + 52) (M + 28) d := by
  obtain ⟨z, z1, z2, z3⟩ := ieee_fromPoints hx hy (by omega) (by omega)
  obtain ⟨e1, e2⟩ := ieee_norm hn z3 (by omega) (by omega)
  refine ⟨_, ?_, ?_, e2.mono (by omega) (by omega)⟩
  · simp only [Pt.distancePoint, z1, ok_bind, pure_ok, Vec.norm]
  · simp only [Pt.distancePoint, z2, ok_bind, pure_ok, Vec.norm, e1]

theorem unit_zero_ie {x : E n} (hn : n ≤ 2 ^ 53) (hx : RV 102 50 x) (hx0 : x = 0) :
    @Vec.unit ℝ rn (arr x) = .error (.valueError "The magnitude must not be zero.") ∧
      @Vec.unit XReal ieee (xarr x) = .error (.valueError "The magnitude must not be zero.") := by
  classical
  have h0 : @normv ℝ rn (arr x) = 0 := (std53.normv_rp le_rfl (CRP.refl _ x)).eq_zero.mpr (by simp [hx0])
  obtain ⟨e1, -⟩ := ieee_norm hn hx (by norm_num) (by norm_num)
  constructor
  · simp only [Vec.unit, Vec.norm, eq_rd, zero_rd, h0, decide_true, if_true]
  · simp only [Vec.unit, Vec.norm, e1, ieee_zero, ieee_eq, eq_rd, zero_rd, h0, decide_true, if_true]

/-- C96: for moderate coordinates the vector constructors and methods compute, in IEEE binary64 with overflow and gradual
underflow, exactly what they compute with 53-bit rounding and unbounded exponents (the subject of C73-C95). -/
theorem C96_vector [NeZero n] (hn : n ≤ 2 ^ 53) {x y : E n} (hx : ModerateV x) (hy : ModerateV y) :
    @Vec.norm XReal ieee (xarr x) = fin (@Vec.norm ℝ rn (arr x)) ∧
    @dot XReal ieee (xarr x) (xarr y) = asFloat (@dot ℝ rn (arr x) (arr y)) ∧
    @Vec.fromPoints XReal ieee (xarr x) (xarr y) = asFloats (@Vec.fromPoints ℝ rn (arr x) (arr y)) ∧
    @Pt.distancePoint XReal ieee (xarr x) (xarr y) = asFloat (@Pt.distancePoint ℝ rn (arr x) (arr y)) ∧
    @Vec.unit XReal ieee (xarr x) = asFloats (@Vec.unit ℝ rn (arr x)) ∧
    @Vec.scalarProjection XReal ieee (xarr x) (xarr y) = asFloat (@Vec.scalarProjection ℝ rn (arr x) (arr y)) ∧
    (x ≠ 0 → @Vec.projectVector XReal ieee (xarr x) (xarr y) = asFloats (@Vec.projectVector ℝ rn (arr x) (arr y))) ∧
    ∀ r s : ℝ, Moderate r →
      @Vec.isZero XReal ieee ⟨fin r, fin s⟩ (xarr x) = @Vec.isZero ℝ rn ⟨r, s⟩ (arr x) ∧
      @Vec.isPerpendicular XReal ieee ⟨fin r, fin s⟩ (xarr x) (xarr y) = @Vec.isPerpendicular ℝ rn ⟨r, s⟩ (arr x) (arr y) := by
  have hx' := hx.rv
  have hy' := hy.rv
  obtain ⟨-, d1, d2⟩ := ieee_dot hn hx' hy' (by norm_num) (by norm_num)
  refine ⟨(ieee_norm hn hx' (by norm_num) (by norm_num)).1, ?_, ?_, ?_, ?_, ?_, ?_, fun r s hr => ⟨?_, ?_⟩⟩
  · rw [d1, dot_rd, asFloat_ok]
  · obtain ⟨z, z1, z2, -⟩ := fromPoints_ie hx hy
    rw [z1, z2, asFloats_ok]
  · obtain ⟨z, z1, z2, -⟩ := distancePoint_ie hn hx' hy' (by norm_num) (by norm_num)
    rw [z1, z2, asFloat_ok]
  · by_cases hx0 : x = 0
    · obtain ⟨h1, h2⟩ := unit_zero_ie hn hx' hx0
      rw [h1, h2, asFloats_error]
    · obtain ⟨z, z1, z2, -⟩ := unit_ie hn hx' (by norm_num) (by norm_num) (by norm_num) (by norm_num) hx0
      rw [z1, z2, asFloats_ok]
  · by_cases hx0 : x = 0
    · obtain ⟨h1, h2⟩ := unit_zero_ie hn hx' hx0
      simp only [Vec.scalarProjection, h1, h2]
      rfl
    · obtain ⟨z, z1, z2, -⟩ := scalarProjection_ie hn hx' (hy'.mono (by norm_num) (by norm_num)) hx0
      rw [z1, z2, asFloat_ok]
  · intro hx0
    obtain ⟨z, z1, z2, -⟩ := projectVector_ie hn hx' hy' hx0 (by norm_num) (by norm_num) (by norm_num) (by norm_num)
      (by norm_num) (by norm_num) (by norm_num) (by norm_num)
    rw [z1, z2, asFloats_ok]
  · exact isZero_ie hn hx' hr.rng (by norm_num) (by norm_num) (by norm_num) (by norm_num)
  · simp only [Vec.isPerpendicular, dot_rd, d1, ok_bind, ieee_zero, zero_rd]
    exact ieee_isclose hr.rng d2 (Rng.zero _ _) (by norm_num) (by norm_num) (by norm_num) (by norm_num)

/-! ### Angles -/

theorem clip_ie {x : ℝ} : @clip XReal ieee (fin x) (@PyNum.ofInt XReal ieee (-1)) (@one XReal ieee) =
    fin (@clip ℝ rn x (@PyNum.ofInt ℝ rn (-1)) (@one ℝ rn)) := by
  rw [show @PyNum.ofInt XReal ieee (-1) = fin (@PyNum.ofInt ℝ rn (-1)) from rfl, ieee_one]
  simp only [clip, ieee_lt]
  split
  · rfl
  · split <;> rfl

theorem clip_rn {x : ℝ} : @clip ℝ rn x (@PyNum.ofInt ℝ rn (-1)) (@one ℝ rn) = max (-1) (min x 1) := by
  classical
  simp only [clip, lt_rd, one_rd, ofInt_rd, Int.cast_neg, Int.cast_one, decide_eq_true_eq]
  split_ifs with h1 h2
  · rw [min_eq_left (by linarith), max_eq_left h1.le]
  · rw [min_eq_right h2.le, max_eq_right (by norm_num)]
  · rw [min_eq_left (not_lt.mp h2), max_eq_right (not_lt.mp h1)]

theorem cosine_ie [NeZero n] (hn : n ≤ 2 ^ 53) {x y : E n} (hx : RV 102 50 x) (hy : RV 102 50 y) :
    (x ≠ 0 → y ≠ 0 → ∃ c, @Vec.cosineSimilarity ℝ rn (arr x) (arr y) = .ok c ∧
      @Vec.cosineSimilarity XReal ieee (xarr x) (xarr y) = .ok (fin c) ∧ Rng 410 0 c) ∧
    (x = 0 ∨ y = 0 → @Vec.cosineSimilarity XReal ieee (xarr x) (xarr y) = asFloat (@Vec.cosineSimilarity ℝ rn (arr x) (arr y))) := by
  classical
  obtain ⟨a1, a2⟩ := ieee_norm hn hx (by norm_num) (by norm_num)
  obtain ⟨b1, b2⟩ := ieee_norm hn hy (by norm_num) (by norm_num)
  obtain ⟨p1, p2⟩ := ieee_mul a2 b2 (by norm_num) (by norm_num)
  obtain ⟨-, d1, d2⟩ := ieee_dot hn hx hy (by norm_num) (by norm_num)
  constructor
  · intro hx0 hy0
    have hp : @PyNum.mul ℝ rn (@normv ℝ rn (arr x)) (@normv ℝ rn (arr y)) ≠ 0 := by
      rw [mul_rd]
      intro h0
      have := (std53.rp _).eq_zero.mp h0
      exact (mul_ne_zero (norm_pos_rn hx0) (norm_pos_rn hy0)) this
    obtain ⟨q1, q2⟩ := ieee_div d2 p2 hp (by norm_num) (by norm_num)
    obtain ⟨q, hq⟩ : ∃ q, q = @PyNum.div ℝ rn (@dotv ℝ rn (arr x) (arr y)) (@PyNum.mul ℝ rn (@normv ℝ rn (arr x)) (@normv ℝ rn (arr y))) :=
      ⟨_, rfl⟩
    refine ⟨@clip ℝ rn q (@PyNum.ofInt ℝ rn (-1)) (@one ℝ rn), ?_, ?_, ?_⟩
    · simp only [Vec.cosineSimilarity, new1D_rd, ok_bind, Vec.norm, eq_rd, zero_rd, hp, decide_false, Bool.false_eq_true, if_false,
        dot_rd, pure_ok, hq]
    · simp only [Vec.cosineSimilarity, ieee_new1D, ok_bind, Vec.norm, a1, b1, p1, ieee_zero, ieee_eq, eq_rd, zero_rd, hp, decide_false,
        Bool.false_eq_true, if_false, d1, q1, clip_ie, pure_ok, hq]
    · rw [clip_rn]
      rw [← hq] at q2
      refine ⟨?_, ?_⟩
      · rcases max_choice (-1 : ℝ) (min q 1) with h | h
        · rw [h]; exact (Rng.one.neg.mono (by norm_num) le_rfl : Rng 410 0 (-1)).1
        · rw [h]
          rcases min_choice q 1 with h | h
          · rw [h]; exact q2.1.mono (by norm_num)
          · rw [h]; exact (Rng.one.mono (by norm_num) le_rfl : Rng 410 0 1).1
      · rw [zpow_zero, abs_le]
        exact ⟨le_max_left _ _, max_le (by norm_num) (min_le_right _ _)⟩
  · intro h0
    have hp : @PyNum.mul ℝ rn (@normv ℝ rn (arr x)) (@normv ℝ rn (arr y)) = 0 := by
      have hz : ∀ {w : E n}, w = 0 → @normv ℝ rn (arr w) = 0 := fun {w} hw =>
        (std53.normv_rp le_rfl (CRP.refl _ w)).eq_zero.mpr (by simp [hw])
      rw [mul_rd]
      rcases h0 with h0 | h0 <;> simp [hz h0, roundNearest_zero]
    simp only [Vec.cosineSimilarity, ieee_new1D, new1D_rd, ok_bind, Vec.norm, a1, b1, p1, ieee_zero, ieee_eq, eq_rd, zero_rd, hp,
      decide_true, if_true, asFloat_error]

theorem acos_ie {c : ℝ} (h : Rng 410 0 c) :
    @mathAcos XReal ieee (fin c) = asFloat (@mathAcos ℝ rn c) := by
  classical
  have hc := abs_le.mp (by simpa using h.2 : |c| ≤ 1)
  have hm : @PyNum.acos XReal ieee (fin c) = fin (@PyNum.acos ℝ rn c) := by
    show binary64 (XReal.acos (fin c)) = fin (roundNearest 53 (Real.arccos c))
    rw [show XReal.acos (fin c) = fin (Real.arccos c) by
      simp only [XReal.acos]; rw [if_neg (by rintro (h | h) <;> linarith)]]
    refine binary64_fin ?_ ?_
    · by_cases h1 : c = 1
      · left; rw [h1, Real.arccos_one]; exact Mul2.zero _
      · right
        have h2 : Mul2 410 (1 - c) := (Rng.one.mono (by norm_num) le_rfl : Rng 410 0 1).1.sub h.1
        have h3 := h2.le_abs (sub_ne_zero.mpr (Ne.symm h1))
        rw [abs_of_nonneg (by linarith)] at h3
        have h4 := Real.one_sub_sq_div_two_le_cos (x := Real.arccos c)
        rw [Real.cos_arccos hc.1 hc.2] at h4
        have h5 := Real.arccos_nonneg c
        rw [abs_of_nonneg h5]
        refine le_of_lt (lt_of_pow_lt_pow_left₀ 2 h5 ?_)
        calc ((2 : ℝ) ^ (-1022 : ℤ)) ^ 2 = (2 : ℝ) ^ (-2044 : ℤ) := by rw [← zpow_natCast, ← zpow_mul]; norm_num
          _ < (2 : ℝ) ^ (-410 : ℤ) := zpow_lt_zpow_right₀ (by norm_num) (by norm_num)
          _ ≤ 1 - c := h3
          _ ≤ _ := by nlinarith [sq_nonneg (Real.arccos c)]
    · rw [abs_of_nonneg (Real.arccos_nonneg c)]
      refine (Real.arccos_le_pi c).trans (Real.pi_le_four.trans ?_)
      calc (4 : ℝ) = (2 : ℝ) ^ (2 : ℤ) := by norm_num
        _ ≤ _ := zpow_le_zpow_right₀ (by norm_num) (by norm_num)
  simp only [mathAcos, hm, show @PyNum.ofInt XReal ieee (-1) = fin (@PyNum.ofInt ℝ rn (-1)) from rfl, ieee_one, ieee_lt]
  split <;> rfl

/-- C96: cosines, angles and the parallelism test. -/
theorem C96_angles [NeZero n] (hn : n ≤ 2 ^ 53) {x y : E n} (hx : ModerateV x) (hy : ModerateV y) :
    @Vec.cosineSimilarity XReal ieee (xarr x) (xarr y) = asFloat (@Vec.cosineSimilarity ℝ rn (arr x) (arr y)) ∧
    @Vec.angleBetween XReal ieee (xarr x) (xarr y) = asFloat (@Vec.angleBetween ℝ rn (arr x) (arr y)) ∧
    ∀ r s : ℝ, Moderate r →
      @Vec.isParallel XReal ieee ⟨fin r, fin s⟩ (xarr x) (xarr y) = @Vec.isParallel ℝ rn ⟨r, s⟩ (arr x) (arr y) := by
  have hx' := hx.rv
  have hy' := hy.rv
  obtain ⟨c1, c2⟩ := cosine_ie hn hx' hy'
  have hcos : @Vec.cosineSimilarity XReal ieee (xarr x) (xarr y) = asFloat (@Vec.cosineSimilarity ℝ rn (arr x) (arr y)) := by
    by_cases hx0 : x = 0
    · exact c2 (.inl hx0)
    by_cases hy0 : y = 0
    · exact c2 (.inr hy0)
    obtain ⟨c, e1, e2, -⟩ := c1 hx0 hy0
    rw [e1, e2, asFloat_ok]
  refine ⟨hcos, ?_, fun r s hr => ?_⟩
  · unfold Vec.angleBetween
    rw [hcos]
    by_cases h0 : x ≠ 0 ∧ y ≠ 0
    · obtain ⟨c, e1, e2, e3⟩ := c1 h0.1 h0.2
      rw [e1, asFloat_ok, ok_bind, ok_bind]
      exact acos_ie e3
    · cases hc : @Vec.cosineSimilarity ℝ rn (arr x) (arr y) with
      | error e => rfl
      | ok c =>
        exfalso
        apply h0
        classical
        have hz : ∀ {w : E n}, w = 0 → @normv ℝ rn (arr w) = 0 := fun {w} hw =>
          (std53.normv_rp le_rfl (CRP.refl _ w)).eq_zero.mpr (by simp [hw])
        constructor <;> rintro h1 <;>
        simp [Vec.cosineSimilarity, new1D_rd, Vec.norm, mul_rd, eq_rd, zero_rd, hz h1, roundNearest_zero] at hc
  · have z1 := isZero_ie (s := s) hn hx' hr.rng (by norm_num) (by norm_num) (by norm_num) (by norm_num)
    have z2 := isZero_ie (s := s) hn hy' hr.rng (by norm_num) (by norm_num) (by norm_num) (by norm_num)
    unfold Vec.isParallel
    rw [z1, ieee_new1D, new1D_rd, ok_bind, ok_bind, z2, hcos]
    congr 1
    funext z
    cases z
    · by_cases h0 : x ≠ 0 ∧ y ≠ 0
      · obtain ⟨c, e1, e2, e3⟩ := c1 h0.1 h0.2
        rw [e1, asFloat_ok, ok_bind, ok_bind, ieee_abs, ieee_one, one_rd, abs_rd]
        exact ieee_isclose hr.rng e3.abs (Rng.one.mono (by norm_num) (by norm_num)) (by norm_num) (by norm_num) (by norm_num)
          (by norm_num)
      · cases hc : @Vec.cosineSimilarity ℝ rn (arr x) (arr y) with
        | error e => rfl
        | ok c =>
          exfalso
          apply h0
          classical
          have hz : ∀ {w : E n}, w = 0 → @normv ℝ rn (arr w) = 0 := fun {w} hw =>
            (std53.normv_rp le_rfl (CRP.refl _ w)).eq_zero.mpr (by simp [hw])
          constructor <;> rintro h1 <;>
          simp [Vec.cosineSimilarity, new1D_rd, Vec.norm, mul_rd, eq_rd, zero_rd, hz h1, roundNearest_zero] at hc
    · rfl

end SkSpatial
