import Verif.Props.Ieee
/-! # C96 for lines, planes, spheres, circles, cylinders and measurements -/

namespace SkSpatial
open XReal StdRounding

variable {n : ℕ}

local notation "rn" => rounded (leftToRight (roundNearest 53))

theorem isZero_default_ie [NeZero n] (hn : n ≤ 2 ^ 53) {v : E n} (hv : RV 102 51 v) :
    @Vec.isZero XReal ieee (@Tol.default XReal ieee) (xarr v) = .ok (@decide (v = 0) (Classical.propDecidable _)) := by
  classical
  obtain ⟨r, r1, r2, r3⟩ := ieee_tol
  rw [r2, isZero_ie hn hv r3 (by norm_num) (by norm_num) (by norm_num) (by norm_num), ← r1, C73_is_zero std53 (by norm_num)]
  congr

/-- C96: the constructors of lines and planes accept exactly the non-zero vectors. -/
theorem C96_constructors [NeZero n] (hn : n ≤ 2 ^ 53) {v : E n} (p : E n) (hv : ModerateV v) :
    (v ≠ 0 → @Line.new XReal ieee (xarr p) (xarr v) = .ok ⟨xarr p, xarr v⟩ ∧
      @Plane.new XReal ieee (xarr p) (xarr v) = .ok ⟨xarr p, xarr v⟩) ∧
    (v = 0 → @Line.new XReal ieee (xarr p) (xarr v) = .error (.valueError "The vector must not be the zero vector.") ∧
      @Plane.new XReal ieee (xarr p) (xarr v) = .error (.valueError "The vector must not be the zero vector.")) := by
  classical
  have hz := isZero_default_ie hn (hv.rv.mono (by norm_num) (by norm_num : (50 : ℤ) ≤ 51))
  constructor <;> intro h0
  · simp [Line.new, Plane.new, newLinePlane, ieee_new1D, hz, h0]
  · simp only [h0, decide_true] at hz ⊢
    simp [Line.new, Plane.new, newLinePlane, ieee_new1D, hz]

theorem lineProject_ie [NeZero n] (hn : n ≤ 2 ^ 53) {p v x : E n} (hp : ModerateV p) (hv : ModerateV v) (hx : ModerateV x)
    (hv0 : v ≠ 0) :
    ∃ q : E n, @Line.projectPoint ℝ rn ⟨arr p, arr v⟩ (arr x) = .ok (arr q) ∧
      @Line.projectPoint XReal ieee ⟨xarr p, xarr v⟩ (xarr x) = .ok (xarr q) ∧ RV 511 410 q := by
  obtain ⟨w, w1, w2, w3⟩ := fromPoints_ie hp hx
  obtain ⟨z, z1, z2, z3⟩ := projectVector_ie hn hv.rv w3 hv0 (by norm_num) (by norm_num) (by norm_num) (by norm_num)
      (by norm_num) (by norm_num) (by norm_num) (by norm_num)
  obtain ⟨q, q1, q2, q3⟩ := ieee_vadd (hp.rv.mono (by norm_num) (by norm_num)) z3 (by norm_num) (by norm_num)
  refine ⟨q, ?_, ?_, q3.mono (by norm_num) (by norm_num)⟩
  · simp only [Line.projectPoint, w1, ok_bind, z1, q1]
  · simp only [Line.projectPoint, w2, ok_bind, z2, q2]

theorem lineDistance_ie [NeZero n] (hn : n ≤ 2 ^ 53) {p v x : E n} (hp : ModerateV p) (hv : ModerateV v) (hx : ModerateV x)
    (hv0 : v ≠ 0) :
    ∃ d, @Line.distancePoint ℝ rn ⟨arr p, arr v⟩ (arr x) = .ok d ∧
      @Line.distancePoint XReal ieee ⟨xarr p, xarr v⟩ (xarr x) = .ok (fin d) ∧ Rng 563 438 d := by
  obtain ⟨q, q1, q2, q3⟩ := lineProject_ie hn hp hv hx hv0
  obtain ⟨d, d1, d2, d3⟩ := distancePoint_ie hn q3 (hx.rv.mono (by norm_num) (by norm_num)) (by norm_num) (by norm_num)
  refine ⟨d, ?_, ?_, d3⟩
  · simp only [Line.distancePoint, wrapped_rd, q1, ok_bind, d1]
  · simp only [Line.distancePoint, ieee_wrapped, q2, ok_bind, d2]

theorem planeSigned_ie [NeZero n] (hn : n ≤ 2 ^ 53) {p v x : E n} (hp : ModerateV p) (hv : ModerateV v) (hx : ModerateV x)
    (hv0 : v ≠ 0) :
    ∃ d, @Plane.distancePointSigned ℝ rn ⟨arr p, arr v⟩ (arr x) = .ok d ∧
      @Plane.distancePointSigned XReal ieee ⟨xarr p, xarr v⟩ (xarr x) = .ok (fin d) ∧ Rng 333 308 d := by
  obtain ⟨w, w1, w2, w3⟩ := fromPoints_ie hp hx
  obtain ⟨d, d1, d2, d3⟩ := scalarProjection_ie hn hv.rv w3 hv0
  refine ⟨d, ?_, ?_, d3⟩
  · simp only [Plane.distancePointSigned, w1, ok_bind, d1]
  · simp only [Plane.distancePointSigned, w2, ok_bind, d2]

/-- C96: line methods. -/
theorem C96_line [NeZero n] (hn : n ≤ 2 ^ 53) {p v x : E n} (hp : ModerateV p) (hv : ModerateV v) (hx : ModerateV x)
    (hv0 : v ≠ 0) :
    @Line.projectPoint XReal ieee ⟨xarr p, xarr v⟩ (xarr x) = asFloats (@Line.projectPoint ℝ rn ⟨arr p, arr v⟩ (arr x)) ∧
    @Line.distancePoint XReal ieee ⟨xarr p, xarr v⟩ (xarr x) = asFloat (@Line.distancePoint ℝ rn ⟨arr p, arr v⟩ (arr x)) ∧
    ∀ r s : ℝ, Moderate r →
      @Line.containsPoint XReal ieee ⟨fin r, fin s⟩ ⟨xarr p, xarr v⟩ (xarr x) =
        @Line.containsPoint ℝ rn ⟨r, s⟩ ⟨arr p, arr v⟩ (arr x) := by
  obtain ⟨q, q1, q2, -⟩ := lineProject_ie hn hp hv hx hv0
  obtain ⟨d, d1, d2, d3⟩ := lineDistance_ie hn hp hv hx hv0
  refine ⟨by rw [q1, q2, asFloats_ok], by rw [d1, d2, asFloat_ok], fun r s hr => ?_⟩
  simp only [Line.containsPoint, containsPointFn, d1, d2, ok_bind, ieee_zero, zero_rd]
  exact ieee_isclose hr.rng d3 (Rng.zero _ _) (by norm_num) (by norm_num) (by norm_num) (by norm_num)

theorem intSign_ie (x : ℝ) : @intSign XReal ieee (fin x) = @intSign ℝ rn x := by
  simp only [intSign, ieee_zero, ieee_lt, ieee_eq]

/-- C96: plane methods. -/
theorem C96_plane [NeZero n] (hn : n ≤ 2 ^ 53) {p v x : E n} (hp : ModerateV p) (hv : ModerateV v) (hx : ModerateV x)
    (hv0 : v ≠ 0) :
    @Plane.distancePointSigned XReal ieee ⟨xarr p, xarr v⟩ (xarr x) =
      asFloat (@Plane.distancePointSigned ℝ rn ⟨arr p, arr v⟩ (arr x)) ∧
    @Plane.distancePoint XReal ieee ⟨xarr p, xarr v⟩ (xarr x) = asFloat (@Plane.distancePoint ℝ rn ⟨arr p, arr v⟩ (arr x)) ∧
    @Plane.sidePoint XReal ieee ⟨xarr p, xarr v⟩ (xarr x) = @Plane.sidePoint ℝ rn ⟨arr p, arr v⟩ (arr x) ∧
    @Plane.projectPoint XReal ieee ⟨xarr p, xarr v⟩ (xarr x) = asFloats (@Plane.projectPoint ℝ rn ⟨arr p, arr v⟩ (arr x)) ∧
    ∀ r s : ℝ, Moderate r →
      @Plane.containsPoint XReal ieee ⟨fin r, fin s⟩ ⟨xarr p, xarr v⟩ (xarr x) =
        @Plane.containsPoint ℝ rn ⟨r, s⟩ ⟨arr p, arr v⟩ (arr x) := by
  obtain ⟨d, d1, d2, d3⟩ := planeSigned_ie hn hp hv hx hv0
  have e1 : @Plane.distancePoint ℝ rn ⟨arr p, arr v⟩ (arr x) = .ok |d| := by
    simp only [Plane.distancePoint, d1, ok_bind, pure_ok, abs_rd]
  have e2 : @Plane.distancePoint XReal ieee ⟨xarr p, xarr v⟩ (xarr x) = .ok (fin |d|) := by
    simp only [Plane.distancePoint, d2, ok_bind, pure_ok, ieee_abs, abs_rd]
  refine ⟨by rw [d1, d2, asFloat_ok], by rw [e1, e2, asFloat_ok], ?_, ?_, fun r s hr => ?_⟩
  · simp only [Plane.sidePoint, d1, d2, ok_bind, intSign_ie]
  · obtain ⟨w, w1, w2, w3⟩ := fromPoints_ie hx hp
    obtain ⟨z, z1, z2, z3⟩ := projectVector_ie hn hv.rv w3 hv0 (by norm_num) (by norm_num) (by norm_num) (by norm_num)
      (by norm_num) (by norm_num) (by norm_num) (by norm_num)
    obtain ⟨q, q1, q2, q3⟩ := ieee_vadd (hx.rv.mono (by norm_num) (by norm_num)) z3 (by norm_num) (by norm_num)
    simp only [Plane.projectPoint, w1, w2, ok_bind, z1, z2, new1D_rd, ieee_new1D, q1, q2, asFloats_ok]
  · simp only [Plane.containsPoint, containsPointFn, e1, e2, ok_bind, ieee_zero, zero_rd]
    exact ieee_isclose hr.rng d3.abs (Rng.zero _ _) (by norm_num) (by norm_num) (by norm_num) (by norm_num)

/-- C96: `plane.intersect_line(line)`. -/
theorem C96_plane_intersect_line [NeZero n] (hn : n ≤ 2 ^ 53) {p m q d : E n} (hp : ModerateV p) (hm : ModerateV m)
    (hq : ModerateV q) (hd : ModerateV d) :
    @Plane.intersectLine XReal ieee (@Tol.default XReal ieee) ⟨xarr p, xarr m⟩ ⟨xarr q, xarr d⟩ =
      asFloats (@Plane.intersectLine ℝ rn (@Tol.default ℝ rn) ⟨arr p, arr m⟩ ⟨arr q, arr d⟩) := by
  classical
  obtain ⟨r, r1, r2, r3⟩ := ieee_tol
  obtain ⟨-, d1, d2⟩ := ieee_dot hn hm.rv hd.rv (by norm_num) (by norm_num)
  obtain ⟨w, w1, w2, w3⟩ := fromPoints_ie hp hq
  obtain ⟨-, c1, c2⟩ := ieee_dot hn hm.rv w3 (by norm_num) (by norm_num)
  have hcl := isclose_zero_rd std53 (by norm_num) (@dotv ℝ rn (arr m) (arr d))
  have hcl' : @isclose XReal ieee (@Tol.default XReal ieee) (fin (@dotv ℝ rn (arr m) (arr d))) (@zero XReal ieee) =
      .ok (decide (@dotv ℝ rn (arr m) (arr d) = 0)) := by
    rw [r2, ieee_zero, zero_rd, ieee_isclose r3 d2 (Rng.zero _ _) (by norm_num) (by norm_num) (by norm_num) (by norm_num), ← r1,
      ← hcl, zero_rd]
  simp only [Plane.intersectLine, Vec.isPerpendicular, dot_rd, d1, ok_bind, hcl, hcl']
  by_cases h0 : @dotv ℝ rn (arr m) (arr d) = 0
  · simp [h0]
  · obtain ⟨q1, q2⟩ := ieee_div c2.neg d2 h0 (by norm_num) (by norm_num)
    obtain ⟨s, s1, s2, s3⟩ := ieee_smul q2 hd.rv (by norm_num) (by norm_num)
    obtain ⟨y, y1, y2, -⟩ := ieee_vadd (hq.rv.mono (by norm_num) (by norm_num)) s3 (by norm_num) (by norm_num)
    simp only [h0, decide_false, Bool.false_eq_true, if_false, w1, w2, ok_bind, dot_rd, c1, ieee_neg, neg_rd, q1, s1, s2, y1, y2, asFloats_ok]

end SkSpatial
