import Verif.Props.Ieee14
import Verif.Props.Rounding26
/-!
# C128: the circle through three points in IEEE binary64
-/

namespace SkSpatial
open XReal StdRounding

local notation "rn" => rounded (leftToRight (roundNearest 53))
local notation "u53" => ((2 : ℝ) ^ (-((53 : ℕ) : ℤ)))

/-- The closed form of a 3x3 determinant. -/
theorem det3_ie {m1 M1 m2 M2 m3 M3 : ℤ} {a b c d e f g h i : ℝ} (ha : Rng m1 M1 a) (hd : Rng m1 M1 d) (hg : Rng m1 M1 g)
    (hb : Rng m2 M2 b) (he : Rng m2 M2 e) (hh : Rng m2 M2 h) (hc : Rng m3 M3 c) (hf : Rng m3 M3 f) (hi : Rng m3 M3 i)
    (p1 : 0 ≤ m1) (p2 : 0 ≤ m2) (p3 : 0 ≤ m3) (q1 : 0 ≤ M1) (q2 : 0 ≤ M2) (q3 : 0 ≤ M3)
    (hm : m1 + m2 + m3 ≤ 1074) (hM : M1 + M2 + M3 + 3 ≤ 1023) :
    @Circle.det3 XReal ieee (fin a) (fin b) (fin c) (fin d) (fin e) (fin f) (fin g) (fin h) (fin i) = fin (@Circle.det3 ℝ rn a b c d e f g h i) ∧
      Rng (m1 + m2 + m3) (M1 + M2 + M3 + 3) (@Circle.det3 ℝ rn a b c d e f g h i) := by
  obtain ⟨a1, a2⟩ := ieee_mul he hi (by omega) (by omega)
  obtain ⟨b1, b2⟩ := ieee_mul hf hh (by omega) (by omega)
  obtain ⟨c1, c2⟩ := ieee_sub a2 (b2.mono (by omega : m3 + m2 ≤ m2 + m3) (by omega : M3 + M2 ≤ M2 + M3)) (by omega) (by omega)
  obtain ⟨d1, d2⟩ := ieee_mul ha c2 (by omega) (by omega)
  obtain ⟨e1, e2⟩ := ieee_mul hd hi (by omega) (by omega)
  obtain ⟨f1, f2⟩ := ieee_mul hf hg (by omega) (by omega)
  obtain ⟨g1, g2⟩ := ieee_sub e2 (f2.mono (by omega : m3 + m1 ≤ m1 + m3) (by omega : M3 + M1 ≤ M1 + M3)) (by omega) (by omega)
  obtain ⟨h1, h2⟩ := ieee_mul hb g2 (by omega) (by omega)
  obtain ⟨i1, i2⟩ := ieee_sub (d2.mono (by omega : _ ≤ m1 + m2 + m3) (by omega : _ ≤ M1 + M2 + M3 + 1))
    (h2.mono (by omega : _ ≤ m1 + m2 + m3) (by omega : _ ≤ M1 + M2 + M3 + 1)) (by omega) (by omega)
  obtain ⟨j1, j2⟩ := ieee_mul hd hh (by omega) (by omega)
  obtain ⟨k1, k2⟩ := ieee_mul he hg (by omega) (by omega)
  obtain ⟨l1, l2⟩ := ieee_sub j2 (k2.mono (by omega : m2 + m1 ≤ m1 + m2) (by omega : M2 + M1 ≤ M1 + M2)) (by omega) (by omega)
  obtain ⟨n1, n2⟩ := ieee_mul hc l2 (by omega) (by omega)
  obtain ⟨o1, o2⟩ := ieee_add (i2.mono le_rfl (by omega : _ ≤ M1 + M2 + M3 + 2)) (n2.mono (by omega) (by omega)) (by omega) (by omega)
  refine ⟨?_, o2.mono le_rfl (by omega)⟩
  simp only [Circle.det3, a1, b1, c1, d1, e1, f1, g1, h1, i1, j1, k1, l1, n1, o1]

/-- The circles returned with an unbounded exponent range, as circles of floats. -/
def asCircle : Res (Circle ℝ) → Res (Circle XReal) := Except.map fun c => ⟨c.point.map fin, fin c.radius⟩

theorem div_zero_not_finite (a : ℝ) : @PyNum.isFinite XReal ieee (@PyNum.div XReal ieee (fin a) (fin 0)) = false := by
  have h1 : @PyNum.div XReal ieee (fin a) (fin 0) = binary64 (XReal.ofSign a) := by
    show binary64 (XReal.div (fin a) (fin 0)) = _
    simp [XReal.div]
  rw [h1]
  unfold XReal.ofSign
  split_ifs <;> rfl

set_option maxHeartbeats 2000000 in
/-- The result of `Circle.from_points` for moderate numbers: either the first determinant is 0 and `ValueError` is raised (the centre would not
be finite), or it is the result with unbounded exponent range. -/
theorem circle_fromPoints_ie (ext : NumpyExt XReal) {a b c : E 2} (ha : ModerateV a) (hb : ModerateV b) (hc : ModerateV c) (tol : Option ℝ) :
    (@Circle.det3 ℝ rn (a 0) (a 1) 1 (b 0) (b 1) 1 (c 0) (c 1) 1 ≠ 0 → @Circle.fromPoints XReal ieee ext (tol.map fin) (xarr a) (xarr b) (xarr c) =
      asCircle (@Circle.fromPoints ℝ rn (viaFloats ext) tol (arr a) (arr b) (arr c))) ∧
    (@Circle.det3 ℝ rn (a 0) (a 1) 1 (b 0) (b 1) 1 (c 0) (c 1) 1 = 0 → @Pts.areCollinear ℝ rn (viaFloats ext) tol (rows [a, b, c]) = .ok false →
      ∃ msg, @Circle.fromPoints XReal ieee ext (tol.map fin) (xarr a) (xarr b) (xarr c) = .error (.valueError msg)) ∧
    (@Pts.areCollinear ℝ rn (viaFloats ext) tol (rows [a, b, c]) ≠ .ok false →
      @Circle.fromPoints XReal ieee ext (tol.map fin) (xarr a) (xarr b) (xarr c) =
        asCircle (@Circle.fromPoints ℝ rn (viaFloats ext) tol (arr a) (arr b) (arr c))) := by
  classical
  obtain ⟨e1, e2, e3⟩ := collinear3_ie ext ha hb hc tol
  simp only [Circle.fromPoints, new1D_rd, ieee_new1D, ok_bind]
  have f1 : @newPoints ℝ rn [[a 0, a 1], [b 0, b 1], [c 0, c 1]] = .ok (rows [a, b, c]) := by rw [← e1, arr2, arr2, arr2]
  have f2 : @newPoints XReal ieee [[fin (a 0), fin (a 1)], [fin (b 0), fin (b 1)], [fin (c 0), fin (c 1)]] = .ok (xrows [a, b, c]) := by
    rw [← e2, xarr2, xarr2, xarr2]
  simp only [arr2, xarr2, f1, f2, ok_bind, e3]
  cases @Pts.areCollinear ℝ rn (viaFloats ext) tol (rows [a, b, c]) with
  | error e =>
    refine ⟨fun _ => rfl, ?_, fun _ => rfl⟩
    intro _ h
    cases h
  | ok col =>
    cases col
    swap
    · refine ⟨fun _ => rfl, ?_, fun _ => rfl⟩
      intro _ h
      cases h
    simp only [ok_bind, Bool.false_eq_true, if_false]
    have hs : ∀ {x : E 2}, ModerateV x →
        @PyNum.add XReal ieee (@sq XReal ieee (fin (x 0))) (@sq XReal ieee (fin (x 1))) = fin (@PyNum.add ℝ rn (@sq ℝ rn (x 0)) (@sq ℝ rn (x 1))) ∧
          Rng 204 101 (@PyNum.add ℝ rn (@sq ℝ rn (x 0)) (@sq ℝ rn (x 1))) := by
      intro x hx
      obtain ⟨u1, u2⟩ := ieee_mul (hx.rv 0) (hx.rv 0) (by norm_num) (by norm_num)
      obtain ⟨v1, v2⟩ := ieee_mul (hx.rv 1) (hx.rv 1) (by norm_num) (by norm_num)
      obtain ⟨w1, w2⟩ := ieee_add u2 v2 (by norm_num) (by norm_num)
      exact ⟨by simp only [sq, u1, v1, w1], w2.mono (by norm_num) (by norm_num)⟩
    obtain ⟨sa1, sa2⟩ := hs ha
    obtain ⟨sb1, sb2⟩ := hs hb
    obtain ⟨sc1, sc2⟩ := hs hc
    obtain ⟨SA, hSA⟩ : ∃ S, S = @PyNum.add ℝ rn (@sq ℝ rn (a 0)) (@sq ℝ rn (a 1)) := ⟨_, rfl⟩
    obtain ⟨SB, hSB⟩ : ∃ S, S = @PyNum.add ℝ rn (@sq ℝ rn (b 0)) (@sq ℝ rn (b 1)) := ⟨_, rfl⟩
    obtain ⟨SC, hSC⟩ : ∃ S, S = @PyNum.add ℝ rn (@sq ℝ rn (c 0)) (@sq ℝ rn (c 1)) := ⟨_, rfl⟩
    rw [← hSA] at sa1 sa2
    rw [← hSB] at sb1 sb2
    rw [← hSC] at sc1 sc2
    obtain ⟨d1, d2⟩ := det3_ie (ha.rv 0) (hb.rv 0) (hc.rv 0) (ha.rv 1) (hb.rv 1) (hc.rv 1) Rng.one Rng.one Rng.one
      (by norm_num) (by norm_num) (by norm_num) (by norm_num) (by norm_num) (by norm_num) (by norm_num) (by norm_num)
    obtain ⟨g1, g2⟩ := det3_ie sa2 sb2 sc2 (ha.rv 1) (hb.rv 1) (hc.rv 1) Rng.one Rng.one Rng.one
      (by norm_num) (by norm_num) (by norm_num) (by norm_num) (by norm_num) (by norm_num) (by norm_num) (by norm_num)
    obtain ⟨h1, h2⟩ := det3_ie sa2 sb2 sc2 (ha.rv 0) (hb.rv 0) (hc.rv 0) Rng.one Rng.one Rng.one
      (by norm_num) (by norm_num) (by norm_num) (by norm_num) (by norm_num) (by norm_num) (by norm_num) (by norm_num)
    obtain ⟨i1, i2⟩ := det3_ie sa2 sb2 sc2 (ha.rv 0) (hb.rv 0) (hc.rv 0) (ha.rv 1) (hb.rv 1) (hc.rv 1)
      (by norm_num) (by norm_num) (by norm_num) (by norm_num) (by norm_num) (by norm_num) (by norm_num) (by norm_num)
    simp only [sa1, sb1, sc1, ← hSA, ← hSB, ← hSC, ieee_one, one_rd, d1, g1, h1, i1, half_ie.1, ieee_neg]
    obtain ⟨D, hD⟩ : ∃ D, D = @Circle.det3 ℝ rn (a 0) (a 1) 1 (b 0) (b 1) 1 (c 0) (c 1) 1 := ⟨_, rfl⟩
    obtain ⟨D1, hD1⟩ : ∃ D, D = @Circle.det3 ℝ rn SA (a 1) 1 SB (b 1) 1 SC (c 1) 1 := ⟨_, rfl⟩
    obtain ⟨D2, hD2⟩ : ∃ D, D = @Circle.det3 ℝ rn SA (a 0) 1 SB (b 0) 1 SC (c 0) 1 := ⟨_, rfl⟩
    obtain ⟨D3, hD3⟩ : ∃ D, D = @Circle.det3 ℝ rn SA (a 0) (a 1) SB (b 0) (b 1) SC (c 0) (c 1) := ⟨_, rfl⟩
    rw [← hD] at d2
    rw [← hD1] at g2
    rw [← hD2] at h2
    rw [← hD3] at i2
    simp only [← hD, ← hD1, ← hD2, ← hD3]
    obtain ⟨k1, k2⟩ := ieee_mul half_ie.2 g2 (by norm_num) (by norm_num)
    have hneg : Rng 53 0 (@PyNum.neg ℝ rn (@half ℝ rn)) := by rw [neg_rd]; exact half_ie.2.neg
    obtain ⟨l1, l2⟩ := ieee_mul hneg h2 (by norm_num) (by norm_num)
    simp only [k1, l1]
    refine ⟨fun h0 => ?_, fun h0 _ => ?_, fun h => absurd rfl h⟩
    · obtain ⟨m1, m2⟩ := ieee_div k2 d2 h0 (by norm_num) (by norm_num)
      obtain ⟨o1, o2⟩ := ieee_div l2 d2 h0 (by norm_num) (by norm_num)
      obtain ⟨p1, p2⟩ := ieee_div i2 d2 h0 (by norm_num) (by norm_num)
      obtain ⟨X, hX⟩ : ∃ X, X = @PyNum.div ℝ rn (@PyNum.mul ℝ rn (@half ℝ rn) D1) D := ⟨_, rfl⟩
      obtain ⟨Y, hY⟩ : ∃ Y, Y = @PyNum.div ℝ rn (@PyNum.mul ℝ rn (@PyNum.neg ℝ rn (@half ℝ rn)) D2) D := ⟨_, rfl⟩
      obtain ⟨Z, hZ⟩ : ∃ Z, Z = @PyNum.div ℝ rn D3 D := ⟨_, rfl⟩
      rw [← hX] at m2
      rw [← hY] at o2
      rw [← hZ] at p2
      simp only [m1, o1, p1, ← hX, ← hY, ← hZ]
      have m3 : Rng 520 362 X := m2.mono (by norm_num) (by norm_num)
      have o3 : Rng 520 362 Y := o2.mono (by norm_num) (by norm_num)
      have p3 : Rng 1040 725 Z := p2.mono (by norm_num) (by norm_num)
      obtain ⟨q1, q2⟩ := ieee_mul m3 m3 (by norm_num) (by norm_num)
      obtain ⟨r1, r2⟩ := ieee_mul o3 o3 (by norm_num) (by norm_num)
      obtain ⟨s1, s2⟩ := ieee_add q2 r2 (by norm_num) (by norm_num)
      obtain ⟨t1, t2⟩ := ieee_add (s2.mono (by norm_num : _ ≤ (1040 : ℤ)) (by norm_num : _ ≤ (725 : ℤ))) p3 (by norm_num) (by norm_num)
      simp only [sq, q1, r1, s1, t1]
      rcases mathSqrt_ie' (m := 520) (M := 363) (t2.mono (by norm_num) (by norm_num)) (by norm_num) (by norm_num) with ⟨y, w1, w2, w3⟩ | ⟨e, w1, w2⟩
      swap
      · rw [w1, w2]; rfl
      rw [w1, w2, ok_bind, ok_bind]
      simp only [Circle.new, newBaseSphere, ieee_zero, ieee_le, (new1D_pair X Y).1, (new1D_pair X Y).2, ok_bind]
      split <;> rfl
    · have h0' : D = 0 := h0
      rw [h0']
      have key : ∀ (y R : XReal), ∃ msg, @Circle.new XReal ieee [@PyNum.div XReal ieee (fin (@PyNum.mul ℝ rn (@half ℝ rn) D1)) (fin 0), y] R =
          .error (.valueError msg) := by
        intro y R
        simp only [Circle.new, newBaseSphere]
        split
        · exact ⟨_, rfl⟩
        · refine ⟨"The values must all be finite.", ?_⟩
          simp [new1D, div_zero_not_finite]
      unfold mathSqrt
      split
      · exact ⟨_, rfl⟩
      · exact key _ _

theorem fromPoints_rn_ok {ext : NumpyExt ℝ} {a b c : E 2} {tol : Option ℝ} {C : Circle ℝ}
    (h : @Circle.fromPoints ℝ rn ext tol (arr a) (arr b) (arr c) = .ok C) : ∃ (o : E 2) (r : ℝ), C = ⟨arr o, r⟩ ∧ 0 < r := by
  classical
  simp only [Circle.fromPoints, new1D_rd, ok_bind] at h
  simp only [arr2, bind_ok_iff] at h
  obtain ⟨ps, -, col, -, h⟩ := h
  cases col
  swap
  · cases h
  simp only [Bool.false_eq_true, if_false, bind_ok_iff] at h
  obtain ⟨R, -, h⟩ := h
  simp only [Circle.new, newBaseSphere, (new1D_pair _ _).1, ok_bind, pure_ok] at h
  split_ifs at h with h0
  · cases h
  · simp only [ok_bind, length_arr, ne_eq, not_true_eq_false, if_false, Except.ok.injEq] at h
    refine ⟨_, R, h.symm, ?_⟩
    simpa [le_rd, zero_rd] using h0

/-- **C128** A circle that `Circle.from_points` returns for moderate numbers in binary64 has a finite centre and radius, the radius is positive,
and it is the circle of the computation with unbounded exponent range. -/
theorem C128_returned (ext : NumpyExt XReal) {a b c : E 2} (ha : ModerateV a) (hb : ModerateV b) (hc : ModerateV c) (tol : Option ℝ)
    {C : Circle XReal} (hC : @Circle.fromPoints XReal ieee ext (tol.map fin) (xarr a) (xarr b) (xarr c) = .ok C) :
    ∃ (o : E 2) (r : ℝ), C = ⟨xarr o, fin r⟩ ∧ 0 < r ∧ @Circle.fromPoints ℝ rn (viaFloats ext) tol (arr a) (arr b) (arr c) = .ok ⟨arr o, r⟩ := by
  obtain ⟨k1, k2, k3⟩ := circle_fromPoints_ie ext ha hb hc tol
  have hk : @Circle.fromPoints XReal ieee ext (tol.map fin) (xarr a) (xarr b) (xarr c) =
      asCircle (@Circle.fromPoints ℝ rn (viaFloats ext) tol (arr a) (arr b) (arr c)) := by
    by_cases hcol : @Pts.areCollinear ℝ rn (viaFloats ext) tol (rows [a, b, c]) = .ok false
    · by_cases h0 : @Circle.det3 ℝ rn (a 0) (a 1) 1 (b 0) (b 1) 1 (c 0) (c 1) 1 = 0
      · obtain ⟨msg, hm⟩ := k2 h0 hcol
        rw [hm] at hC
        cases hC
      · exact k1 h0
    · exact k3 hcol
  rw [hk] at hC
  cases e : @Circle.fromPoints ℝ rn (viaFloats ext) tol (arr a) (arr b) (arr c) with
  | error err => rw [e] at hC; cases hC
  | ok D =>
    obtain ⟨o, r, rfl, hr⟩ := fromPoints_rn_ok e
    rw [e] at hC
    exact ⟨o, r, (Except.ok.inj hC).symm, hr, rfl⟩

/-- **C128** If `are_collinear` says that the points are collinear, `ValueError` is raised. -/
theorem C128_collinear (ext : NumpyExt XReal) {a b c : E 2} (ha : ModerateV a) (hb : ModerateV b) (hc : ModerateV c) (tol : Option ℝ)
    (hcol : @Pts.areCollinear XReal ieee ext (tol.map fin) (xrows [a, b, c]) = .ok true) :
    @Circle.fromPoints XReal ieee ext (tol.map fin) (xarr a) (xarr b) (xarr c) = .error (.valueError "The points must not be collinear.") := by
  have f2 : @newPoints XReal ieee [[fin (a 0), fin (a 1)], [fin (b 0), fin (b 1)], [fin (c 0), fin (c 1)]] = .ok (xrows [a, b, c]) := by
    rw [← (collinear3_ie ext ha hb hc tol).2.1, xarr2, xarr2, xarr2]
  simp only [Circle.fromPoints, ieee_new1D, ok_bind]
  simp only [xarr2, f2, ok_bind, hcol, if_true]

private theorem circle_area_contra {D u R r ρ : ℝ} (h : D ≤ 50 * u * (R * R)) (hρ : ρ = 124 * u * R ^ 2 / D) (hs : 30 * ρ * (R + r) ^ 2 ≤ r ^ 2)
    (hD : 0 < D) (hr : 0 < r) (hR : 0 ≤ R) (hu : 0 ≤ u) : False := by
  have h1 : ρ * D = 124 * u * R ^ 2 := by rw [hρ]; field_simp
  have h0 : 0 ≤ ρ := by rw [hρ]; positivity
  have h2 : 2 ≤ ρ := by
    by_contra hc
    have : ρ * D < 2 * D := mul_lt_mul_of_pos_right (not_le.mp hc) hD
    nlinarith
  have h3 : r ^ 2 ≤ (R + r) ^ 2 := by nlinarith
  have h4 : 0 < r ^ 2 := by positivity
  nlinarith

/-- **C128** `Circle.from_points(a, b, c)` in binary64, with the default tolerance: for the vertices of a triangle that is not thinner than the
noise of the collinearity test, on the circle with centre `o` and radius `r` and within `R` of the origin, the method returns a circle; with
`ρ = 124 u R² / (2 area)` its centre is within `4 ρ (R + r)` of `o` and its radius within `16 ρ (R + r)² / r` of `r`. -/
theorem C128_circle_from_points {η : ℝ} (ext : NumpyExt XReal) (hN : @StableNumpy η (viaFloats ext)) {a b c o : E 2} {r R ρ : ℝ}
    (ha : ModerateV a) (hb : ModerateV b) (hc : ModerateV c)
    (hao : a ∈ Metric.sphere o r) (hbo : b ∈ Metric.sphere o r) (hco : c ∈ Metric.sphere o r)
    (hr : 0 < r) (hRa : ‖a‖ ≤ R) (hRb : ‖b‖ ≤ R) (hRc : ‖c‖ ≤ R)
    (hna : ∀ l : ℝ, triangleNoise u53 η a b c < dist a (AffineMap.lineMap b c l))
    (hnb : ∀ l : ℝ, triangleNoise u53 η a b c < dist b (AffineMap.lineMap c a l))
    (hnc : ∀ l : ℝ, triangleNoise u53 η a b c < dist c (AffineMap.lineMap a b l))
    (harea : (b 0 - a 0) * (c 1 - a 1) - (c 0 - a 0) * (b 1 - a 1) ≠ 0)
    (hρ : ρ = 124 * u53 * R ^ 2 / |(b 0 - a 0) * (c 1 - a 1) - (c 0 - a 0) * (b 1 - a 1)|)
    (hsmall : 30 * ρ * (R + r) ^ 2 ≤ r ^ 2) :
    ∃ (o' : E 2) (r' : ℝ), @Circle.fromPoints XReal ieee ext none (xarr a) (xarr b) (xarr c) = .ok ⟨xarr o', fin r'⟩ ∧ 0 < r' ∧
      dist o' o ≤ 4 * ρ * (R + r) ∧ |r' - r| ≤ 16 * ρ * (R + r) ^ 2 / r := by
  obtain ⟨o', r', k1, k2⟩ := C116_from_points_default (η := η) (ext := viaFloats ext) (hS := hN) std53 (by norm_num) hao hbo hco hr hRa hRb hRc
    hna hnb hnc harea hρ hsmall
  refine ⟨o', r', ?_, k2⟩
  have hR : 0 ≤ R := (norm_nonneg a).trans hRa
  obtain ⟨D, hD⟩ : ∃ D, D = (b 0 - a 0) * (c 1 - a 1) - (c 0 - a 0) * (b 1 - a 1) := ⟨_, rfl⟩
  rw [← hD] at harea hρ
  have hD0 : 0 < |D| := abs_pos.mpr harea
  have h0 : @Circle.det3 ℝ rn (a 0) (a 1) 1 (b 0) (b 1) 1 (c 0) (c 1) 1 ≠ 0 := by
    intro h0
    have hst : |@Circle.det3 ℝ rn (a 0) (a 1) 1 (b 0) (b 1) 1 (c 0) (c 1) 1 - _| ≤ _ :=
      (C116_closed_form std53 (by norm_num)).2 (a 0) (a 1) 1 (b 0) (b 1) 1 (c 0) (c 1) 1
    rw [h0, show a 0 * (b 1 * 1 - 1 * c 1) - a 1 * (b 0 * 1 - 1 * c 0) + 1 * (b 0 * c 1 - b 1 * c 0) = D by rw [hD]; ring, zero_sub, abs_neg,
      abs_one, max_self, max_self, mul_one] at hst
    have co : ∀ {x : E 2}, ‖x‖ ≤ R → ∀ i, |x i| ≤ R := fun hx i => le_trans (by rw [← Real.norm_eq_abs]; exact PiLp.norm_apply_le _ i) hx
    have hp : max |a 0| (max |b 0| |c 0|) * max |a 1| (max |b 1| |c 1|) ≤ R * R :=
      mul_le_mul (max_le (co hRa 0) (max_le (co hRb 0) (co hRc 0))) (max_le (co hRa 1) (max_le (co hRb 1) (co hRc 1)))
        ((abs_nonneg _).trans (le_max_left _ _)) hR
    refine circle_area_contra ?_ hρ hsmall hD0 hr hR (by positivity)
    exact hst.trans (mul_le_mul_of_nonneg_left hp (by positivity))
  have := (circle_fromPoints_ie ext ha hb hc none).1 h0
  rw [Option.map_none, k1] at this
  exact this

/-! ### The hypotheses can be met -/

/-- The circle through `(0, 0)`, `(4, 0)`, `(0, 3)` in binary64: centre `(2, 1.5)` and radius `2.5`, up to `10⁻¹¹`. -/
example : ∃ (ext : NumpyExt XReal) (o' : E 2) (r' : ℝ), @LawfulNumpy (viaFloats ext) ∧
    @Circle.fromPoints XReal ieee ext none (xarr (vec2 0 0)) (xarr (vec2 ((4 : ℤ) : ℝ) 0)) (xarr (vec2 0 ((3 : ℤ) : ℝ))) =
      .ok ⟨xarr o', fin r'⟩ ∧ dist o' (vec2 2 (3 / 2)) ≤ 1 / 10 ^ 12 ∧ |r' - 5 / 2| ≤ 1 / 10 ^ 11 := by
  have hl : @LawfulNumpy (viaFloats (onFloats (realNumpy fun _ x => x))) := by
    rw [viaFloats_onFloats]; exact realNumpy_lawful _
  have hN := @StableNumpy.of_lawful (viaFloats (onFloats (realNumpy fun _ x => x))) hl
  have ha : ModerateV (vec2 0 0) := moderate_vec2 moderate_zero moderate_zero
  have hb : ModerateV (vec2 ((4 : ℤ) : ℝ) 0) := moderate_vec2 (moderate_int (by norm_num)) moderate_zero
  have hc : ModerateV (vec2 0 ((3 : ℤ) : ℝ)) := moderate_vec2 moderate_zero (moderate_int (by norm_num))
  have e4 : ((4 : ℤ) : ℝ) = 4 := by norm_num
  have e3 : ((3 : ℤ) : ℝ) = 3 := by norm_num
  rw [e4] at hb
  rw [e3] at hc
  have hu : (2 : ℝ) ^ (-((53 : ℕ) : ℤ)) = (2 : ℝ)⁻¹ ^ 53 := by norm_num
  have h1 : triangleNoise ((2 : ℝ) ^ (-((53 : ℕ) : ℤ))) 0 (vec2 0 0) (vec2 4 0) (vec2 0 3) < 1 := by
    rw [hu]; exact lt_of_le_of_lt noise_345.2 (by norm_num)
  have hn' : ∀ x : E 2, x 0 ^ 2 + x 1 ^ 2 ≤ 16 → ‖x‖ ≤ 4 := fun x hx => by
    apply le_of_sq_le_sq _ (by norm_num)
    rw [norm_sq2]; linarith
  have hD : |((vec2 4 0 : E 2) 0 - (vec2 0 0 : E 2) 0) * ((vec2 0 3 : E 2) 1 - (vec2 0 0 : E 2) 1) -
      ((vec2 0 3 : E 2) 0 - (vec2 0 0 : E 2) 0) * ((vec2 4 0 : E 2) 1 - (vec2 0 0 : E 2) 1)| = 12 := by
    simp [vec2]; norm_num
  obtain ⟨o', r', k1, -, k2, k3⟩ := C128_circle_from_points _ hN (o := vec2 2 (3 / 2)) (r := 5 / 2) (R := 4)
    (ρ := 124 * (2 : ℝ) ^ (-((53 : ℕ) : ℤ)) * 4 ^ 2 / 12) ha hb hc
    (by rw [Metric.mem_sphere]; exact dist_vec2_of (by norm_num) (by norm_num))
    (by rw [Metric.mem_sphere]; exact dist_vec2_of (by norm_num) (by norm_num))
    (by rw [Metric.mem_sphere]; exact dist_vec2_of (by norm_num) (by norm_num)) (by norm_num)
    (hn' _ (by simp [vec2])) (hn' _ (by simp [vec2]; norm_num)) (hn' _ (by simp [vec2]; norm_num))
    (fun l => h1.trans (far_345 l).1) (fun l => h1.trans (far_345 l).2.1) (fun l => h1.trans (far_345 l).2.2)
    (by intro h0; rw [h0] at hD; norm_num at hD) (by rw [hD]) (by norm_num)
  rw [e4, e3]
  exact ⟨_, o', r', hl, k1, k2.trans (by norm_num), k3.trans (by norm_num)⟩

end SkSpatial
