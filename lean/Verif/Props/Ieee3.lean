import Verif.Props.Ieee2
/-! # C96 for spheres, circles, cylinders and measurements -/

namespace SkSpatial
open XReal StdRounding

variable {n : ℕ}

local notation "rn" => rounded (leftToRight (roundNearest 53))

@[simp] theorem asPair_ok (x y : E n) : asPair (.ok (arr x, arr y)) = .ok (xarr x, xarr y) := rfl
@[simp] theorem asPair_error (e : Err) : asPair (.error e) = .error e := rfl

theorem arrIsEqual_ie (x y : E n) : @arrIsEqual XReal ieee (xarr x) (xarr y) = @arrIsEqual ℝ rn (arr x) (arr y) := by
  simp only [arrIsEqual, xarr, List.length_map, List.zip_map, List.all_map]
  congr 2

theorem arrIsEqual_rn (x y : E n) : @arrIsEqual ℝ rn (arr x) (arr y) = true ↔ x = y := by
  classical
  simp only [arrIsEqual, length_arr, decide_true, Bool.true_and, List.all_eq_true, eq_rd, decide_eq_true_eq]
  constructor
  · intro h
    ext i
    have := h (x i, y i) (by
      rw [List.mem_iff_getElem]
      exact ⟨i, by simp, by simp [arr]⟩)
    exact this
  · rintro rfl p hp
    obtain ⟨i, hi, rfl⟩ := List.mem_iff_getElem.mp hp
    simp

theorem baseDistance_ie [NeZero n] (hn : n ≤ 2 ^ 53) {c x : E n} {r : ℝ} (hc : ModerateV c) (hr : Moderate r) (hx : ModerateV x) :
    ∃ d, @baseDistancePoint ℝ rn (arr c) r (arr x) = .ok d ∧ @baseDistancePoint XReal ieee (xarr c) (fin r) (xarr x) = .ok (fin d) ∧
      Rng 154 79 d := by
  obtain ⟨d, d1, d2, d3⟩ := distancePoint_ie hn hc.rv hx.rv (by norm_num) (by norm_num)
  obtain ⟨e1, e2⟩ := ieee_sub d3 (hr.rng.mono (by norm_num) (by norm_num)) (by norm_num) (by norm_num)
  refine ⟨_, ?_, ?_, e2.abs.mono (by norm_num) (by norm_num)⟩
  · simp only [baseDistancePoint, d1, ok_bind, pure_ok, abs_rd]
  · simp only [baseDistancePoint, d2, ok_bind, pure_ok, e1, ieee_abs, abs_rd]

theorem baseProject_ie [NeZero n] (hn : n ≤ 2 ^ 53) {c x : E n} {r : ℝ} (hc : ModerateV c) (hr : Moderate r) (hx : ModerateV x) :
    @baseProjectPoint XReal ieee (xarr c) (fin r) (xarr x) = asFloats (@baseProjectPoint ℝ rn (arr c) r (arr x)) := by
  obtain ⟨w, w1, w2, w3⟩ := fromPoints_ie hc hx
  simp only [baseProjectPoint, arrIsEqual_ie]
  by_cases h : @arrIsEqual ℝ rn (arr c) (arr x) = true
  · simp only [h, if_true, asFloats_error]
  · simp only [h, Bool.false_eq_true, if_false, w1, w2, ok_bind]
    by_cases h0 : w = 0
    · obtain ⟨u1, u2⟩ := unit_zero_ie hn (x := w) (by rw [h0]; exact fun i => Rng.zero _ _) h0
      simp only [u1, u2]
      rfl
    · obtain ⟨u, u1, u2, u3⟩ := unit_ie hn w3 (by norm_num) (by norm_num) (by norm_num) (by norm_num) h0
      obtain ⟨s, s1, s2, s3⟩ := ieee_smul hr.rng u3 (by norm_num) (by norm_num)
      obtain ⟨y, y1, y2, -⟩ := ieee_vadd (hc.rv.mono (by norm_num) (by norm_num)) s3 (by norm_num) (by norm_num)
      simp only [u1, u2, ok_bind, s1, s2, y1, y2, asFloats_ok]

theorem contains_ie {f : List XReal → Res XReal} {g : List ℝ → Res ℝ} {x : E n} {d r s : ℝ} (hr : Moderate r)
    (hd : Rng 154 79 d) (h1 : f (xarr x) = .ok (fin d)) (h2 : g (arr x) = .ok d) :
    @containsPointFn XReal ieee f ⟨fin r, fin s⟩ (xarr x) = @containsPointFn ℝ rn g ⟨r, s⟩ (arr x) := by
  simp only [containsPointFn, h1, h2, ok_bind, ieee_zero, zero_rd]
  exact ieee_isclose hr.rng hd (Rng.zero _ _) (by norm_num) (by norm_num) (by norm_num) (by norm_num)

/-- C96: sphere methods. -/
theorem C96_sphere {c x : E 3} {r : ℝ} (hc : ModerateV c) (hr : Moderate r) (hx : ModerateV x) :
    (0 < r → @Sphere.new XReal ieee (xarr c) (fin r) = .ok ⟨xarr c, fin r⟩) ∧
    (r ≤ 0 → @Sphere.new XReal ieee (xarr c) (fin r) = .error (.valueError "The radius must be positive.")) ∧
    @Sphere.distancePoint XReal ieee ⟨xarr c, fin r⟩ (xarr x) = asFloat (@Sphere.distancePoint ℝ rn ⟨arr c, r⟩ (arr x)) ∧
    @Sphere.projectPoint XReal ieee ⟨xarr c, fin r⟩ (xarr x) = asFloats (@Sphere.projectPoint ℝ rn ⟨arr c, r⟩ (arr x)) ∧
    ∀ t s : ℝ, Moderate t →
      @Sphere.containsPoint XReal ieee ⟨fin t, fin s⟩ ⟨xarr c, fin r⟩ (xarr x) =
        @Sphere.containsPoint ℝ rn ⟨t, s⟩ ⟨arr c, r⟩ (arr x) := by
  classical
  obtain ⟨d, d1, d2, d3⟩ := baseDistance_ie (by norm_num) hc hr hx
  refine ⟨fun h => ?_, fun h => ?_, ?_, baseProject_ie (by norm_num) hc hr hx, fun t s ht => ?_⟩
  · simp [Sphere.new, newBaseSphere, ieee_zero, ieee_le, le_rd, zero_rd, not_le.mpr h, ieee_new1D]
  · simp [Sphere.new, newBaseSphere, ieee_zero, ieee_le, le_rd, zero_rd, h]
  · simp only [Sphere.distancePoint, d1, d2, asFloat_ok]
  · exact contains_ie ht d3 d2 d1

/-- C96: circle methods. -/
theorem C96_circle {c x : E 2} {r : ℝ} (hc : ModerateV c) (hr : Moderate r) (hx : ModerateV x) :
    (0 < r → @Circle.new XReal ieee (xarr c) (fin r) = .ok ⟨xarr c, fin r⟩) ∧
    (r ≤ 0 → @Circle.new XReal ieee (xarr c) (fin r) = .error (.valueError "The radius must be positive.")) ∧
    @Circle.distancePoint XReal ieee ⟨xarr c, fin r⟩ (xarr x) = asFloat (@Circle.distancePoint ℝ rn ⟨arr c, r⟩ (arr x)) ∧
    @Circle.projectPoint XReal ieee ⟨xarr c, fin r⟩ (xarr x) = asFloats (@Circle.projectPoint ℝ rn ⟨arr c, r⟩ (arr x)) ∧
    ∀ t s : ℝ, Moderate t →
      @Circle.containsPoint XReal ieee ⟨fin t, fin s⟩ ⟨xarr c, fin r⟩ (xarr x) =
        @Circle.containsPoint ℝ rn ⟨t, s⟩ ⟨arr c, r⟩ (arr x) := by
  classical
  obtain ⟨d, d1, d2, d3⟩ := baseDistance_ie (by norm_num) hc hr hx
  refine ⟨fun h => ?_, fun h => ?_, ?_, baseProject_ie (by norm_num) hc hr hx, fun t s ht => ?_⟩
  · simp [Circle.new, newBaseSphere, ieee_zero, ieee_le, le_rd, zero_rd, not_le.mpr h, ieee_new1D]
  · simp [Circle.new, newBaseSphere, ieee_zero, ieee_le, le_rd, zero_rd, h]
  · simp only [Circle.distancePoint, d1, d2, asFloat_ok]
  · exact contains_ie ht d3 d2 d1

theorem mathSqrt_ie {m M : ℤ} {x : ℝ} (h : Rng (2 * m) (2 * M) x) (hm : m ≤ 1022) (hM : M ≤ 1023) (hx : 0 ≤ x) :
    ∃ y, @mathSqrt ℝ rn x = .ok y ∧ @mathSqrt XReal ieee (fin x) = .ok (fin y) ∧ Rng (m + 52) M y := by
  classical
  obtain ⟨e1, e2⟩ := ieee_sqrt h hx hm hM
  refine ⟨_, ?_, ?_, e2⟩
  · simp [mathSqrt, lt_rd, zero_rd, not_lt.mpr hx]
  · simp [mathSqrt, ieee_zero, ieee_lt, lt_rd, zero_rd, not_lt.mpr hx, e1]

/-- C96: `sphere.intersect_line(line)`. -/
theorem C96_sphere_intersect_line {c p v : E 3} {r : ℝ} (hc : ModerateV c) (hr : Moderate r) (hp : ModerateV p) (hv : ModerateV v) :
    @Sphere.intersectLine XReal ieee ⟨xarr c, fin r⟩ ⟨xarr p, xarr v⟩ =
      asPair (@Sphere.intersectLine ℝ rn ⟨arr c, r⟩ ⟨arr p, arr v⟩) := by
  classical
  obtain ⟨w, w1, w2, w3⟩ := fromPoints_ie hc hp
  simp only [Sphere.intersectLine, w1, w2, ok_bind]
  by_cases h0 : v = 0
  · obtain ⟨u1, u2⟩ := unit_zero_ie (by norm_num) hv.rv h0
    simp only [u1, u2]
    rfl
  obtain ⟨u, u1, u2, u3⟩ := unit_ie (by norm_num) hv.rv (by norm_num) (by norm_num) (by norm_num) (by norm_num) h0
  obtain ⟨-, d1, d2⟩ := ieee_dot (by norm_num) u3 w3 (by norm_num) (by norm_num)
  obtain ⟨n1, n2⟩ := ieee_norm (by norm_num) w3 (by norm_num) (by norm_num)
  obtain ⟨a1, a2⟩ := ieee_mul d2 d2 (by norm_num) (by norm_num)
  obtain ⟨b1, b2⟩ := ieee_mul n2 n2 (by norm_num) (by norm_num)
  obtain ⟨c1, c2⟩ := ieee_mul hr.rng hr.rng (by norm_num) (by norm_num)
  obtain ⟨e1, e2⟩ := ieee_sub b2 (c2.mono (by norm_num) (by norm_num)) (by norm_num) (by norm_num)
  obtain ⟨f1, f2⟩ := ieee_sub a2 (e2.mono (by norm_num) (by norm_num)) (by norm_num) (by norm_num)
  simp only [u1, u2, ok_bind, dot_rd, d1, sq, Vec.norm, n1, a1, b1, c1, e1, f1, ieee_zero, ieee_lt, lt_rd, zero_rd]
  obtain ⟨D, hD⟩ : ∃ D, D = @PyNum.sub ℝ rn (@PyNum.mul ℝ rn (@dotv ℝ rn (arr u) (arr w)) (@dotv ℝ rn (arr u) (arr w)))
    (@PyNum.sub ℝ rn (@PyNum.mul ℝ rn (@normv ℝ rn (arr w)) (@normv ℝ rn (arr w))) (@PyNum.mul ℝ rn r r)) := ⟨_, rfl⟩
  rw [← hD] at f2 ⊢
  by_cases hneg : D < 0
  · simp only [hneg, decide_true, if_true, asPair_error]
  · obtain ⟨y, y1, y2, y3⟩ := mathSqrt_ie (m := 333) (M := 309) (f2.mono (by norm_num) (by norm_num)) (by norm_num) (by norm_num)
      (not_lt.mp hneg)
    have k1 : Rng 0 0 (@PyNum.ofInt ℝ rn (-1)) := by
      rw [ofInt_rd]; simpa using Rng.one.neg
    have k2 : Rng 0 0 (@PyNum.ofInt ℝ rn 1) := by
      rw [ofInt_rd]; simpa using Rng.one
    obtain ⟨g1, g2⟩ := ieee_mul k1 y3 (by norm_num) (by norm_num)
    obtain ⟨i1, i2⟩ := ieee_mul k2 y3 (by norm_num) (by norm_num)
    have hd' : Rng 385 309 (@PyNum.neg ℝ rn (@dotv ℝ rn (arr u) (arr w))) := d2.neg.mono (by norm_num) (by norm_num)
    obtain ⟨p1, p2⟩ := ieee_add hd' (g2.mono (by norm_num) (by norm_num)) (by norm_num) (by norm_num)
    obtain ⟨q1, q2⟩ := ieee_add hd' (i2.mono (by norm_num) (by norm_num)) (by norm_num) (by norm_num)
    obtain ⟨s, s1, s2, s3⟩ := ieee_smul p2 u3 (by norm_num) (by norm_num)
    obtain ⟨t, t1, t2, t3⟩ := ieee_smul q2 u3 (by norm_num) (by norm_num)
    obtain ⟨A, A1, A2, -⟩ := ieee_vadd (hp.rv.mono (by norm_num) (by norm_num)) s3 (by norm_num) (by norm_num)
    obtain ⟨B, B1, B2, -⟩ := ieee_vadd (hp.rv.mono (by norm_num) (by norm_num)) t3 (by norm_num) (by norm_num)
    have o1 : @PyNum.ofInt XReal ieee (-1) = fin (@PyNum.ofInt ℝ rn (-1)) := rfl
    have o2 : @PyNum.ofInt XReal ieee 1 = fin (@PyNum.ofInt ℝ rn 1) := rfl
    simp only [hneg, decide_false, Bool.false_eq_true, if_false, y1, y2, ok_bind, ieee_neg, o1, o2, g1, i1, p1, q1, s1, s2, t1, t2,
      A1, A2, B1, B2, new1D_rd, ieee_new1D, pure_ok, asPair_ok]

/-- C96: `cylinder.is_point_within(point)`. -/
theorem C96_cylinder {p v x : E 3} {r : ℝ} (hp : ModerateV p) (hv : ModerateV v) (hx : ModerateV x) (hv0 : v ≠ 0) :
    @Cylinder.isPointWithin XReal ieee ⟨xarr p, xarr v, fin r⟩ (xarr x) =
      @Cylinder.isPointWithin ℝ rn ⟨arr p, arr v, r⟩ (arr x) ∧
    @Cylinder.length XReal ieee ⟨xarr p, xarr v, fin r⟩ = fin (@Cylinder.length ℝ rn ⟨arr p, arr v, r⟩) := by
  obtain ⟨l1, l2⟩ := ((C96_constructors (by norm_num) p hv).1 hv0)
  obtain ⟨l1', l2'⟩ := (C73_constructors std53 (by norm_num) p v).1 hv0
  obtain ⟨d, d1, d2, -⟩ := lineDistance_ie (by norm_num) hp hv hx hv0
  obtain ⟨e, e1, e2, -⟩ := planeSigned_ie (by norm_num) hp hv hx hv0
  obtain ⟨n1, -⟩ := ieee_norm (by norm_num) hv.rv (by norm_num) (by norm_num)
  have hlen : @Cylinder.length XReal ieee ⟨xarr p, xarr v, fin r⟩ = fin (@Cylinder.length ℝ rn ⟨arr p, arr v, r⟩) := by
    simp only [Cylinder.length, Vec.norm, n1]
  refine ⟨?_, hlen⟩
  simp only [Cylinder.isPointWithin, Cylinder.betweenCapPlanes, l1, l2, l1', l2', d1, d2, e1, e2, ok_bind, hlen, ieee_zero, ieee_le, pure_ok]

end SkSpatial
