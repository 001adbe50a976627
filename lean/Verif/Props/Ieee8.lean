import Verif.Props.Ieee7
/-! # C122, continued: triangles -/

namespace SkSpatial
open XReal StdRounding

variable {n : ℕ}

local notation "rn" => rounded (leftToRight (roundNearest 53))

/-- `math.acos` of a number of a wide range. -/
theorem mathAcos_ie {c : ℝ} (h : Rng 600 600 c) : @mathAcos XReal ieee (fin c) = asFloat (@mathAcos ℝ rn c) := by
  classical
  by_cases hc : -1 ≤ c ∧ c ≤ 1
  · have hm : @PyNum.acos XReal ieee (fin c) = fin (@PyNum.acos ℝ rn c) := by
      show binary64 (XReal.acos (fin c)) = fin (roundNearest 53 (Real.arccos c))
      rw [show XReal.acos (fin c) = fin (Real.arccos c) by
        simp only [XReal.acos]; rw [if_neg (by rintro (h | h) <;> linarith [hc.1, hc.2])]]
      refine binary64_fin ?_ ?_
      · by_cases h1 : c = 1
        · left; rw [h1, Real.arccos_one]; exact Mul2.zero _
        · right
          have h2 : Mul2 600 (1 - c) := (Rng.one.mono (by norm_num) le_rfl : Rng 600 0 1).1.sub h.1
          have h3 := h2.le_abs (sub_ne_zero.mpr (Ne.symm h1))
          rw [abs_of_nonneg (by linarith [hc.2])] at h3
          have h4 := Real.one_sub_sq_div_two_le_cos (x := Real.arccos c)
          rw [Real.cos_arccos hc.1 hc.2] at h4
          have h5 := Real.arccos_nonneg c
          rw [abs_of_nonneg h5]
          refine le_of_lt (lt_of_pow_lt_pow_left₀ 2 h5 ?_)
          calc ((2 : ℝ) ^ (-1022 : ℤ)) ^ 2 = (2 : ℝ) ^ (-2044 : ℤ) := by rw [← zpow_natCast, ← zpow_mul]; norm_num
            _ < (2 : ℝ) ^ (-600 : ℤ) := zpow_lt_zpow_right₀ (by norm_num) (by norm_num)
            _ ≤ 1 - c := h3
            _ ≤ _ := by nlinarith [sq_nonneg (Real.arccos c)]
      · rw [abs_of_nonneg (Real.arccos_nonneg c)]
        refine (Real.arccos_le_pi c).trans (Real.pi_le_four.trans ?_)
        calc (4 : ℝ) = (2 : ℝ) ^ (2 : ℤ) := by norm_num
          _ ≤ _ := zpow_le_zpow_right₀ (by norm_num) (by norm_num)
    simp only [mathAcos, hm, show @PyNum.ofInt XReal ieee (-1) = fin (@PyNum.ofInt ℝ rn (-1)) from rfl, ieee_one, ieee_lt]
    split <;> rfl
  · have h1 : (@PyNum.lt ℝ rn c (@PyNum.ofInt ℝ rn (-1)) || @PyNum.lt ℝ rn (@one ℝ rn) c) = true := by
      rw [lt_rd, lt_rd, ofInt_rd, one_rd, Bool.or_eq_true, decide_eq_true_iff, decide_eq_true_iff]
      push_cast
      by_contra h2
      rw [not_or, not_lt, not_lt] at h2
      exact hc h2
    simp only [mathAcos, show @PyNum.ofInt XReal ieee (-1) = fin (@PyNum.ofInt ℝ rn (-1)) from rfl, ieee_one, ieee_lt, h1, if_true,
      asFloat_error]

/-- The sides of a triangle. -/
theorem triLine_ie [NeZero n] (hn : n ≤ 2 ^ 53) {a b c : E n} (ha : ModerateV a) (hb : ModerateV b) (hc : ModerateV c) (side : String) :
    (∃ p v : E n, ModerateV p ∧ v ≠ 0 ∧ RV 102 51 v ∧ @Triangle.line ℝ rn ⟨arr a, arr b, arr c⟩ side = .ok ⟨arr p, arr v⟩ ∧
      @Triangle.line XReal ieee ⟨xarr a, xarr b, xarr c⟩ side = .ok ⟨xarr p, xarr v⟩) ∨
    ∃ e, @Triangle.line ℝ rn ⟨arr a, arr b, arr c⟩ side = .error e ∧ @Triangle.line XReal ieee ⟨xarr a, xarr b, xarr c⟩ side = .error e := by
  unfold Triangle.line
  have key : ∀ p q : E n, ModerateV p → ModerateV q →
      (∃ p' v : E n, ModerateV p' ∧ v ≠ 0 ∧ RV 102 51 v ∧ @Line.fromPoints ℝ rn (arr p) (arr q) = .ok ⟨arr p', arr v⟩ ∧
        @Line.fromPoints XReal ieee (xarr p) (xarr q) = .ok ⟨xarr p', xarr v⟩) ∨
      ∃ e, @Line.fromPoints ℝ rn (arr p) (arr q) = .error e ∧ @Line.fromPoints XReal ieee (xarr p) (xarr q) = .error e := by
    intro p q hp hq
    rcases lineFromPoints_ie hn hp.rv hq.rv (by norm_num) (by norm_num) with ⟨v, h1, h2, h3, h4⟩ | h
    · exact .inl ⟨p, v, hp, h1, h2, h3, h4⟩
    · exact .inr h
  by_cases h1 : side = "a"
  · simp only [h1, if_true]; exact key b c hb hc
  by_cases h2 : side = "b"
  · simp only [h2, if_true]; exact key c a hc ha
  by_cases h3 : side = "c"
  · simp only [h3, if_true]; exact key a b ha hb
  · simp only [h1, h2, h3, if_false]
    exact .inr ⟨_, rfl, rfl⟩

/-- Lengths of sides. -/
theorem triLength_ie [NeZero n] (hn : n ≤ 2 ^ 53) {a b c : E n} (ha : ModerateV a) (hb : ModerateV b) (hc : ModerateV c) (side : String) :
    (∃ l : ℝ, l ≠ 0 ∧ Rng 154 78 l ∧ @Triangle.length ℝ rn ⟨arr a, arr b, arr c⟩ side = .ok l ∧
      @Triangle.length XReal ieee ⟨xarr a, xarr b, xarr c⟩ side = .ok (fin l)) ∨
    ∃ e, @Triangle.length ℝ rn ⟨arr a, arr b, arr c⟩ side = .error e ∧
      @Triangle.length XReal ieee ⟨xarr a, xarr b, xarr c⟩ side = .error e := by
  rcases triLine_ie hn ha hb hc side with ⟨p, v, -, h0, h1, h2, h3⟩ | ⟨e, h1, h2⟩
  · left
    obtain ⟨n1, n2⟩ := ieee_norm hn h1 (by norm_num) (by norm_num)
    refine ⟨_, norm_pos_rn h0, n2, ?_, ?_⟩
    · simp only [Triangle.length, h2, ok_bind, Vec.norm, pure_ok]
    · simp only [Triangle.length, h3, ok_bind, Vec.norm, pure_ok, n1]
  · right
    refine ⟨e, ?_, ?_⟩
    · simp only [Triangle.length, h1, error_bind]
    · simp only [Triangle.length, h2, error_bind]

/-- All three lengths. -/
theorem triLengths_ie [NeZero n] (hn : n ≤ 2 ^ 53) {a b c : E n} (ha : ModerateV a) (hb : ModerateV b) (hc : ModerateV c) :
    (∃ k l m : ℝ, (k ≠ 0 ∧ l ≠ 0 ∧ m ≠ 0) ∧ (Rng 154 78 k ∧ Rng 154 78 l ∧ Rng 154 78 m) ∧
      @Triangle.lengths ℝ rn ⟨arr a, arr b, arr c⟩ = .ok (k, l, m) ∧
      @Triangle.lengths XReal ieee ⟨xarr a, xarr b, xarr c⟩ = .ok (fin k, fin l, fin m)) ∨
    ∃ e, @Triangle.lengths ℝ rn ⟨arr a, arr b, arr c⟩ = .error e ∧
      @Triangle.lengths XReal ieee ⟨xarr a, xarr b, xarr c⟩ = .error e := by
  unfold Triangle.lengths
  rcases triLength_ie hn ha hb hc "a" with ⟨k, k0, k1, k2, k3⟩ | ⟨e, h1, h2⟩
  · rcases triLength_ie hn ha hb hc "b" with ⟨l, l0, l1, l2, l3⟩ | ⟨e, h1, h2⟩
    · rcases triLength_ie hn ha hb hc "c" with ⟨m, m0, m1, m2, m3⟩ | ⟨e, h1, h2⟩
      · exact .inl ⟨k, l, m, ⟨k0, l0, m0⟩, ⟨k1, l1, m1⟩, by rw [k2, l2, m2]; rfl, by rw [k3, l3, m3]; rfl⟩
      · exact .inr ⟨e, by rw [k2, l2, h1]; rfl, by rw [k3, l3, h2]; rfl⟩
    · exact .inr ⟨e, by rw [k2, h1]; rfl, by rw [k3, h2]; rfl⟩
  · exact .inr ⟨e, by rw [h1]; rfl, by rw [h2]; rfl⟩

/-- The quotient of the law of cosines. -/
theorem lawCos_ie {x y z : ℝ} (hx : Rng 154 78 x) (hy : Rng 154 78 y) (hz : Rng 154 78 z) (hx0 : x ≠ 0) (hy0 : y ≠ 0) :
    @PyNum.div XReal ieee (@PyNum.sub XReal ieee (@PyNum.add XReal ieee (@sq XReal ieee (fin x)) (@sq XReal ieee (fin y))) (@sq XReal ieee (fin z)))
      (@PyNum.mul XReal ieee (@PyNum.mul XReal ieee (@two XReal ieee) (fin x)) (fin y)) =
    fin (@PyNum.div ℝ rn (@PyNum.sub ℝ rn (@PyNum.add ℝ rn (@sq ℝ rn x) (@sq ℝ rn y)) (@sq ℝ rn z)) (@PyNum.mul ℝ rn (@PyNum.mul ℝ rn (@two ℝ rn) x) y)) ∧
    Rng 600 600 (@PyNum.div ℝ rn (@PyNum.sub ℝ rn (@PyNum.add ℝ rn (@sq ℝ rn x) (@sq ℝ rn y)) (@sq ℝ rn z))
      (@PyNum.mul ℝ rn (@PyNum.mul ℝ rn (@two ℝ rn) x) y)) := by
  simp only [sq]
  obtain ⟨a1, a2⟩ := ieee_mul hx hx (by norm_num) (by norm_num)
  obtain ⟨b1, b2⟩ := ieee_mul hy hy (by norm_num) (by norm_num)
  obtain ⟨c1, c2⟩ := ieee_mul hz hz (by norm_num) (by norm_num)
  obtain ⟨d1, d2⟩ := ieee_add a2 b2 (by norm_num) (by norm_num)
  obtain ⟨e1, e2⟩ := ieee_sub d2 (c2.mono le_rfl (by norm_num)) (by norm_num) (by norm_num)
  have k2 : Rng 0 1 (@two ℝ rn) := by rw [two_rd]; simpa using Rng.int (k := 2) (M := 1) (by norm_num)
  have k1 : @two XReal ieee = fin (@two ℝ rn) := rfl
  obtain ⟨f1, f2⟩ := ieee_mul k2 hx (by norm_num) (by norm_num)
  obtain ⟨g1, g2⟩ := ieee_mul f2 hy (by norm_num) (by norm_num)
  have h0 : @PyNum.mul ℝ rn (@PyNum.mul ℝ rn (@two ℝ rn) x) y ≠ 0 := by
    rw [mul_rd]
    intro h
    have h := (std53.rp _).eq_zero.mp h
    rcases mul_eq_zero.mp h with h | h
    · rw [mul_rd] at h
      have h := (std53.rp _).eq_zero.mp h
      rw [two_rd] at h
      exact (mul_ne_zero two_ne_zero hx0) h
    · exact hy0 h
  obtain ⟨q1, q2⟩ := ieee_div e2 g2 h0 (by norm_num) (by norm_num)
  refine ⟨?_, q2.mono (by norm_num) (by norm_num)⟩
  rw [a1, b1, c1, d1, e1, k1, f1, g1, q1]

theorem sort3_ie (k l m : ℝ) : @Triangle.sort3 XReal ieee (fin k) (fin l) (fin m) =
    (fin (@Triangle.sort3 ℝ rn k l m).1, fin (@Triangle.sort3 ℝ rn k l m).2.1, fin (@Triangle.sort3 ℝ rn k l m).2.2) := by
  have h : ∀ (x y : ℝ), (if @PyNum.lt XReal ieee (fin y) (fin x) = true then (fin y, fin x) else (fin x, fin y)) =
      (fin (if @PyNum.lt ℝ rn y x = true then (y, x) else (x, y)).1, fin (if @PyNum.lt ℝ rn y x = true then (y, x) else (x, y)).2) := by
    intro x y
    rw [ieee_lt]
    cases @PyNum.lt ℝ rn y x <;> rfl
  simp only [Triangle.sort3, h]

theorem sort3_rng {P : ℝ → Prop} {k l m : ℝ} (hk : P k) (hl : P l) (hm : P m) :
    P (@Triangle.sort3 ℝ rn k l m).1 ∧ P (@Triangle.sort3 ℝ rn k l m).2.1 ∧ P (@Triangle.sort3 ℝ rn k l m).2.2 := by
  have h : ∀ x y : ℝ, P x → P y → P (if @PyNum.lt ℝ rn y x = true then (y, x) else (x, y)).1 ∧
      P (if @PyNum.lt ℝ rn y x = true then (y, x) else (x, y)).2 := by
    intro x y hx hy
    split
    · exact ⟨hy, hx⟩
    · exact ⟨hx, hy⟩
  simp only [Triangle.sort3]
  obtain ⟨a1, a2⟩ := h k l hk hl
  obtain ⟨b1, b2⟩ := h _ m a2 hm
  obtain ⟨c1, c2⟩ := h _ _ a1 b1
  exact ⟨c1, c2, b2⟩

/-- The foot of a perpendicular to a line whose direction is a difference of two moderate points. -/
theorem lineProject_ie51 [NeZero n] (hn : n ≤ 2 ^ 53) {p v x : E n} (hp : ModerateV p) (hv : RV 102 51 v) (hx : ModerateV x)
    (hv0 : v ≠ 0) :
    ∃ q : E n, @Line.projectPoint ℝ rn ⟨arr p, arr v⟩ (arr x) = .ok (arr q) ∧
      @Line.projectPoint XReal ieee ⟨xarr p, xarr v⟩ (xarr x) = .ok (xarr q) ∧ RV 520 420 q := by
  obtain ⟨w, w1, w2, w3⟩ := fromPoints_ie hp hx
  obtain ⟨z, z1, z2, z3⟩ := projectVector_ie hn hv w3 hv0 (by norm_num) (by norm_num) (by norm_num) (by norm_num)
      (by norm_num) (by norm_num) (by norm_num) (by norm_num)
  obtain ⟨q, q1, q2, q3⟩ := ieee_vadd (hp.rv.mono (by norm_num) (by norm_num)) z3 (by norm_num) (by norm_num)
  refine ⟨q, ?_, ?_, q3.mono (by norm_num) (by norm_num)⟩
  · simp only [Line.projectPoint, w1, ok_bind, z1, q1]
  · simp only [Line.projectPoint, w2, ok_bind, z2, q2]

/-- C122: sides, lengths, perimeter, angles, altitudes and the two classifications of a triangle. -/
theorem C122_triangle [NeZero n] (hn : n ≤ 2 ^ 53) {a b c : E n} (ha : ModerateV a) (hb : ModerateV b) (hc : ModerateV c) :
    (∀ side, @Triangle.line XReal ieee ⟨xarr a, xarr b, xarr c⟩ side = asLine (@Triangle.line ℝ rn ⟨arr a, arr b, arr c⟩ side)) ∧
    (∀ side, @Triangle.length XReal ieee ⟨xarr a, xarr b, xarr c⟩ side = asFloat (@Triangle.length ℝ rn ⟨arr a, arr b, arr c⟩ side)) ∧
    @Triangle.perimeter XReal ieee ⟨xarr a, xarr b, xarr c⟩ = asFloat (@Triangle.perimeter ℝ rn ⟨arr a, arr b, arr c⟩) ∧
    (∀ vertex, @Triangle.angle XReal ieee ⟨xarr a, xarr b, xarr c⟩ vertex = asFloat (@Triangle.angle ℝ rn ⟨arr a, arr b, arr c⟩ vertex)) ∧
    (∀ vertex, @Triangle.altitude XReal ieee ⟨xarr a, xarr b, xarr c⟩ vertex = asLine (@Triangle.altitude ℝ rn ⟨arr a, arr b, arr c⟩ vertex)) ∧
    ∀ r s : ℝ, Moderate r →
      @Triangle.classify XReal ieee ⟨fin r, fin s⟩ ⟨xarr a, xarr b, xarr c⟩ = @Triangle.classify ℝ rn ⟨r, s⟩ ⟨arr a, arr b, arr c⟩ ∧
      @Triangle.isRight XReal ieee ⟨fin r, fin s⟩ ⟨xarr a, xarr b, xarr c⟩ = @Triangle.isRight ℝ rn ⟨r, s⟩ ⟨arr a, arr b, arr c⟩ := by
  have L := triLengths_ie hn ha hb hc
  refine ⟨fun side => ?_, fun side => ?_, ?_, fun vertex => ?_, fun vertex => ?_, fun r s hr => ⟨?_, ?_⟩⟩
  · rcases triLine_ie hn ha hb hc side with ⟨p, v, -, -, -, h2, h3⟩ | ⟨e, h2, h3⟩
    · rw [h2, h3, asLine_ok]
    · rw [h2, h3, asLine_error]
  · rcases triLength_ie hn ha hb hc side with ⟨l, -, -, h2, h3⟩ | ⟨e, h2, h3⟩
    · rw [h2, h3, asFloat_ok]
    · rw [h2, h3, asFloat_error]
  · rcases L with ⟨k, l, m, -, ⟨k1, l1, m1⟩, h2, h3⟩ | ⟨e, h2, h3⟩
    · obtain ⟨s1, -⟩ := ieee_sumL (m := 154) (l := [k, l, m]) (by norm_num) (by norm_num : (78 : ℤ) + 53 ≤ 1023)
        (by intro x hx; simp only [List.mem_cons, List.not_mem_nil, or_false] at hx; rcases hx with rfl | rfl | rfl <;> assumption)
        (by simp)
      simp only [Triangle.perimeter, h2, h3, ok_bind, pure_ok, asFloat_ok]
      rw [← s1]; rfl
    · simp only [Triangle.perimeter, h2, h3, error_bind, asFloat_error]
  · rcases L with ⟨k, l, m, ⟨k0, l0, m0⟩, ⟨k1, l1, m1⟩, h2, h3⟩ | ⟨e, h2, h3⟩
    · simp only [Triangle.angle, h2, h3, ok_bind]
      split_ifs
      · rw [(lawCos_ie l1 m1 k1 l0 m0).1]; exact mathAcos_ie (lawCos_ie l1 m1 k1 l0 m0).2
      · rw [(lawCos_ie k1 m1 l1 k0 m0).1]; exact mathAcos_ie (lawCos_ie k1 m1 l1 k0 m0).2
      · rw [(lawCos_ie k1 l1 m1 k0 l0).1]; exact mathAcos_ie (lawCos_ie k1 l1 m1 k0 l0).2
      · rfl
    · simp only [Triangle.angle, h2, h3, error_bind, asFloat_error]
  · have key : ∀ (side : String) (x : E n), ModerateV x →
        (do let l ← @Triangle.line XReal ieee ⟨xarr a, xarr b, xarr c⟩ side
            let q ← @Line.projectPoint XReal ieee l (xarr x)
            @Line.fromPoints XReal ieee (xarr x) q) =
        asLine (do let l ← @Triangle.line ℝ rn ⟨arr a, arr b, arr c⟩ side
                   let q ← @Line.projectPoint ℝ rn l (arr x)
                   @Line.fromPoints ℝ rn (arr x) q) := by
      intro side x hx
      rcases triLine_ie hn ha hb hc side with ⟨p, v, hp, h0, h1, h2, h3⟩ | ⟨e, h2, h3⟩
      · obtain ⟨q, q1, q2, q3⟩ := lineProject_ie51 hn hp h1 hx h0
        simp only [h2, h3, ok_bind, q1, q2]
        rcases lineFromPoints_ie hn (hx.rv.mono (by norm_num) (by norm_num)) q3 (by norm_num) (by norm_num) with
          ⟨z, -, -, e1, e2⟩ | ⟨e, e1, e2⟩
        · rw [e1, e2, asLine_ok]
        · rw [e1, e2, asLine_error]
      · simp only [h2, h3, error_bind, asLine_error]
    unfold Triangle.altitude
    split_ifs
    · exact key "a" a ha
    · exact key "b" b hb
    · exact key "c" c hc
    · rfl
  · rcases L with ⟨k, l, m, -, ⟨k1, l1, m1⟩, h2, h3⟩ | ⟨e, h2, h3⟩
    · have i1 := ieee_isclose (s := s) hr.rng k1 l1 (by norm_num) (by norm_num) (by norm_num) (by norm_num)
      have i2 := ieee_isclose (s := s) hr.rng k1 m1 (by norm_num) (by norm_num) (by norm_num) (by norm_num)
      have i3 := ieee_isclose (s := s) hr.rng l1 m1 (by norm_num) (by norm_num) (by norm_num) (by norm_num)
      simp only [Triangle.classify, h2, h3, ok_bind, i1, i2, i3]
    · simp only [Triangle.classify, h2, h3, error_bind]
  · rcases L with ⟨k, l, m, -, ⟨k1, l1, m1⟩, h2, h3⟩ | ⟨e, h2, h3⟩
    · obtain ⟨s1, s2, s3⟩ := sort3_rng (P := Rng 154 78) k1 l1 m1
      obtain ⟨a1, a2⟩ := ieee_mul s1 s1 (by norm_num) (by norm_num)
      obtain ⟨b1, b2⟩ := ieee_mul s2 s2 (by norm_num) (by norm_num)
      obtain ⟨c1, c2⟩ := ieee_mul s3 s3 (by norm_num) (by norm_num)
      obtain ⟨d1, d2⟩ := ieee_add a2 b2 (by norm_num) (by norm_num)
      simp only [Triangle.isRight, h2, h3, ok_bind, sort3_ie, sq, a1, b1, c1, d1]
      exact ieee_isclose hr.rng d2 (c2.mono le_rfl (by norm_num)) (by norm_num) (by norm_num) (by norm_num) (by norm_num)
    · simp only [Triangle.isRight, h2, h3, error_bind]

/-- C122: the normal and the area of a triangle in dimension 2 or 3. -/
theorem C122_triangle_normal [NeZero n] (hn : n ≤ 3) {a b c : E n} (ha : ModerateV a) (hb : ModerateV b) (hc : ModerateV c) :
    @Triangle.normal XReal ieee ⟨xarr a, xarr b, xarr c⟩ = asFloats (@Triangle.normal ℝ rn ⟨arr a, arr b, arr c⟩) ∧
    @Triangle.area XReal ieee ⟨xarr a, xarr b, xarr c⟩ = asFloat (@Triangle.area ℝ rn ⟨arr a, arr b, arr c⟩) := by
  obtain ⟨x, x1, x2, x3⟩ := fromPoints_ie ha hb
  obtain ⟨y, y1, y2, y3⟩ := fromPoints_ie ha hc
  obtain ⟨w, w1, w2, w3⟩ := cross_ie hn x3 y3 (by norm_num) (by norm_num)
  obtain ⟨n1, n2⟩ := ieee_norm (by norm_num) w3 (by norm_num) (by norm_num)
  obtain ⟨m1, -⟩ := ieee_mul half_ie.2 n2 (by norm_num) (by norm_num)
  constructor
  · simp only [Triangle.normal, x1, x2, y1, y2, ok_bind, w1, w2, asFloats_ok]
  · simp only [Triangle.area, Triangle.normal, x1, x2, y1, y2, ok_bind, w1, w2, Vec.norm, n1, half_ie.1, m1, pure_ok, asFloat_ok]

end SkSpatial
