import Verif.Lemmas.Binary64
import Verif.Props.Rounding6
/-!
# C88: concrete failures in binary64

The methods are run in `rounded (leftToRight (roundNearest 53))`: every operation is rounded to the nearest number with 53
significant bits, ties to even, which is IEEE binary64 as long as no operation underflows or overflows (all numbers
below are between `10⁻¹⁷` and `10⁹`).  The roundings are evaluated in `Lemmas/Binary64.lean`.
-/

namespace SkSpatial
open Binary64 StdRounding

local notation "b64" => rounded (leftToRight (roundNearest 53))

theorem std53 : StdRounding ((2 : ℝ) ^ (-((53 : ℕ) : ℤ))) (leftToRight (roundNearest 53)) := roundNearest_std (by norm_num)

theorem isclose_zero_53 (d : ℝ) : @isclose ℝ b64 (@Tol.default ℝ b64) d (@zero ℝ b64) = .ok (decide (d = 0)) :=
  isclose_zero_rd std53 (by norm_num) d

/-- C88: with binary64 floats the projection of `(0, 1)` onto the line through the origin with direction `(1, 3)` is
not contained in the line. -/
theorem C88_line_projection_not_contained :
    ∃ L q, @Line.new ℝ b64 [0, 0] [1, 3] = .ok L ∧ @Line.projectPoint ℝ b64 L [0, 1] = .ok q ∧
      @Line.containsPoint ℝ b64 (@Tol.default ℝ b64) L q = .ok false := by
  have hq : @Line.projectPoint ℝ b64 ⟨[0, 0], [1, 3]⟩ [0, 1] = .ok [5404319552844595 / 18014398509481984, 2026619832316723 / 2251799813685248] := by
    simp only [Line.projectPoint, Vec.projectVector, fromPoints_2, dot_2, smul_2, vadd_2, div_rd, ok_bind, leftToRight_fl, pure_ok, line_0, line_1, line_2, line_3, line_4, line_5, line_6, line_7, line_8, line_9, line_10, line_11, line_12,
    line_13, line_14]
  refine ⟨⟨[0, 0], [1, 3]⟩, _, ?_, hq, ?_⟩
  · simp only [Line.new, newLinePlane, new1D_2, ok_bind, leftToRight_fl, Vec.isZero, dot_2, isclose_zero_53, line_0, line_1, line_2, line_3]
    norm_num
  · simp only [Line.containsPoint, containsPointFn, Line.distancePoint, wrapped_rd, Line.projectPoint, Pt.distancePoint,
      Vec.projectVector, fromPoints_2, dot_2, smul_2, vadd_2, norm_2, div_rd, ok_bind, leftToRight_fl, pure_ok, isclose_zero_53,
      line_0, line_1, line_2, line_3, line_13, line_15, line_16, line_17, line_18, line_19, line_20, line_21, line_22, line_23, line_24,
    line_25, line_26, line_27, line_28, line_29, line_30, line_31]
    norm_num

/-- C88: with binary64 floats the projection of `(0, 1, 0)` onto the plane through the origin with normal
`(1, 2, 0)` is not contained in the plane. -/
theorem C88_plane_projection_not_contained :
    ∃ P q, @Plane.new ℝ b64 [0, 0, 0] [1, 2, 0] = .ok P ∧ @Plane.projectPoint ℝ b64 P [0, 1, 0] = .ok q ∧
      @Plane.containsPoint ℝ b64 (@Tol.default ℝ b64) P q = .ok false := by
  have hq : @Plane.projectPoint ℝ b64 ⟨[0, 0, 0], [1, 2, 0]⟩ [0, 1, 0] = .ok [-(3602879701896397 / 9007199254740992), 900719925474099 / 4503599627370496, 0] := by
    simp only [Plane.projectPoint, Vec.projectVector, fromPoints_3, dot_3, smul_3, vadd_3, new1D_3, div_rd, ok_bind, leftToRight_fl,
      pure_ok, plane_0, plane_1, plane_2, plane_3, plane_4, plane_5, plane_6, plane_7, plane_8, plane_9, plane_10, plane_11,
    plane_12, plane_13, plane_14, plane_15, plane_16, plane_17, plane_18]
  have hu : @Vec.unit ℝ b64 [1, 2, 0] = .ok [8056283928194521 / 18014398509481984, 8056283928194521 / 9007199254740992, 0] := by
    simp only [Vec.unit, norm_3, eq_rd, zero_rd, plane_4, plane_8, plane_9, plane_10, plane_11,
    plane_12, plane_19]
    rw [if_neg (by norm_num)]
    simp only [sdiv_3, plane_20, plane_21, plane_22]
  refine ⟨⟨[0, 0, 0], [1, 2, 0]⟩, _, ?_, hq, ?_⟩
  · simp only [Plane.new, newLinePlane, new1D_3, ok_bind, leftToRight_fl, Vec.isZero, dot_3, isclose_zero_53, plane_4, plane_8, plane_9, plane_10, plane_11,
    plane_12]
    norm_num
  · simp only [Plane.containsPoint, containsPointFn, Plane.distancePoint, Plane.distancePointSigned,
      Vec.scalarProjection, hu, fromPoints_3, dot_3, ok_bind, leftToRight_fl, pure_ok, isclose_zero_53, abs_rd, plane_0, plane_4, plane_23, plane_24, plane_25, plane_26, plane_27, plane_28, plane_29]
    norm_num

/-- C88: with binary64 floats the projection of `(1, 1)` onto the unit circle is not contained in the circle. -/
theorem C88_circle_projection_not_contained :
    ∃ C q, @Circle.new ℝ b64 [0, 0] 1 = .ok C ∧ @Circle.projectPoint ℝ b64 C [1, 1] = .ok q ∧
      @Circle.containsPoint ℝ b64 (@Tol.default ℝ b64) C q = .ok false := by
  have hu : @Vec.unit ℝ b64 [1, 1] = .ok [1592262918131443 / 2251799813685248, 1592262918131443 / 2251799813685248] := by
    simp only [Vec.unit, norm_2, eq_rd, zero_rd, circle_1, circle_2, circle_3, circle_4]
    rw [if_neg (by norm_num)]
    simp only [sdiv_2, circle_5]
  have hq : @Circle.projectPoint ℝ b64 ⟨[0, 0], 1⟩ [1, 1] =
      .ok [1592262918131443 / 2251799813685248, 1592262918131443 / 2251799813685248] := by
    have e : @arrIsEqual ℝ b64 [0, 0] [1, 1] = false := by simp [arrIsEqual, eq_rd]
    simp only [Circle.projectPoint, baseProjectPoint, e, fromPoints_2, hu, smul_2, vadd_2, ok_bind, leftToRight_fl, Bool.false_eq_true,
      if_false, circle_0, circle_6, circle_7]
  refine ⟨⟨[0, 0], 1⟩, _, ?_, hq, ?_⟩
  · norm_num [Circle.new, newBaseSphere, le_rd, zero_rd, new1D_2]
  · simp only [Circle.containsPoint, containsPointFn, Circle.distancePoint, baseDistancePoint, Pt.distancePoint,
      fromPoints_2, norm_2, ok_bind, leftToRight_fl, pure_ok, sub_rd, abs_rd, isclose_zero_53, circle_8, circle_9, circle_10,
    circle_11, circle_12, circle_13]
    norm_num

/-- C88: with binary64 floats `Triangle([0, 0], [4118, 33], [9983, 80]).angle('A')` raises, although the triangle is
accepted and its angle at `A` is not zero: the quotient passed to `math.acos` is rounded up to `1 + 2⁻⁵²`. -/
theorem C88_triangle_angle_raises {ext : NumpyExt ℝ} {T : Triangle ℝ}
    (hT : @Triangle.new ℝ b64 ext (arr (vec2 0 0)) (arr (vec2 4118 33)) (arr (vec2 9983 80)) = .ok T) :
    @Triangle.angle ℝ b64 T "A" = .error (.valueError "math domain error") := by
  obtain rfl := triangle_new_rd hT
  have ha : @Triangle.length ℝ b64 ⟨[0, 0], [4118, 33], [9983, 80]⟩ "a" = .ok (1612210688552929 / 274877906944) := by
    have hn : @Line.fromPoints ℝ b64 [4118, 33] [9983, 80] = .ok ⟨[4118, 33], [5865, 47]⟩ := by
      simp only [Line.fromPoints, Line.new, newLinePlane, fromPoints_2, new1D_2, ok_bind, leftToRight_fl, Vec.isZero, dot_2,
        isclose_zero_53, tri_0, tri_1, tri_2, tri_3, tri_4, tri_5]
      norm_num
    have hs : @Triangle.line ℝ b64 ⟨[0, 0], [4118, 33], [9983, 80]⟩ "a" = @Line.fromPoints ℝ b64 [4118, 33] [9983, 80] := rfl
    simp only [Triangle.length, hs, hn, ok_bind, leftToRight_fl, pure_ok, norm_2, tri_2, tri_3, tri_4, tri_5, tri_6]
  have hb : @Triangle.length ℝ b64 ⟨[0, 0], [4118, 33], [9983, 80]⟩ "b" = .ok (343024281790733 / 34359738368) := by
    have hn : @Line.fromPoints ℝ b64 [9983, 80] [0, 0] = .ok ⟨[9983, 80], [-9983, -80]⟩ := by
      simp only [Line.fromPoints, Line.new, newLinePlane, fromPoints_2, new1D_2, ok_bind, leftToRight_fl, Vec.isZero, dot_2,
        isclose_zero_53, tri_7, tri_8, tri_9, tri_10, tri_11, tri_12]
      norm_num
    have hs : @Triangle.line ℝ b64 ⟨[0, 0], [4118, 33], [9983, 80]⟩ "b" = @Line.fromPoints ℝ b64 [9983, 80] [0, 0] := rfl
    simp only [Triangle.length, hs, hn, ok_bind, leftToRight_fl, pure_ok, norm_2, tri_9, tri_10, tri_11, tri_12, tri_13]
  have hc : @Triangle.length ℝ b64 ⟨[0, 0], [4118, 33], [9983, 80]⟩ "c" = .ok (4527934263091741 / 1099511627776) := by
    have hn : @Line.fromPoints ℝ b64 [0, 0] [4118, 33] = .ok ⟨[0, 0], [4118, 33]⟩ := by
      simp only [Line.fromPoints, Line.new, newLinePlane, fromPoints_2, new1D_2, ok_bind, leftToRight_fl, Vec.isZero, dot_2,
        isclose_zero_53, tri_14,
    tri_15, tri_16, tri_17, tri_18, tri_19]
      norm_num
    have hs : @Triangle.line ℝ b64 ⟨[0, 0], [4118, 33], [9983, 80]⟩ "c" = @Line.fromPoints ℝ b64 [0, 0] [4118, 33] := rfl
    simp only [Triangle.length, hs, hn, ok_bind, leftToRight_fl, pure_ok, norm_2, tri_16, tri_17, tri_18, tri_19, tri_20]

  simp only [arr_vec2, Triangle.angle, Triangle.lengths, ha, hb, hc, ok_bind, leftToRight_fl, pure_ok, sq_rd, add_rd, sub_rd, mul_rd,
    div_rd, two_rd, mathAcos, ofInt_rd, one_rd, lt_rd, tri_21, tri_22, tri_23, tri_24, tri_25, tri_26, tri_27, tri_28]
  norm_num

/-- C88: with binary64 floats the cylinder with base centre `(0, 0, 0)`, axis `(0, 1, 5)` and radius `1` does not
contain the centre `(0, 1, 5)` of its own top cap. -/
theorem C88_cylinder_misses_cap_centre :
    ∃ C, @Cylinder.new ℝ b64 [0, 0, 0] [0, 1, 5] 1 = .ok C ∧
      @Cylinder.isPointWithin ℝ b64 C [0, 1, 5] = .ok false := by
  have hz : @Vec.isZero ℝ b64 (@Tol.default ℝ b64) [0, 1, 5] = .ok false := by
    simp only [Vec.isZero, dot_3, isclose_zero_53, ok_bind, leftToRight_fl, cyl_3, cyl_4, cyl_5, cyl_6, cyl_7, cyl_8]
    norm_num
  have hd : @Plane.distancePointSigned ℝ b64 ⟨[0, 0, 0], [0, 1, 5]⟩ [0, 1, 5] =
      .ok (5740985595342839 / 1125899906842624) := by
    have hu : @Vec.unit ℝ b64 [0, 1, 5] = .ok [0, 1766457106259335 / 9007199254740992, 8832285531296675 / 9007199254740992] := by
      simp only [Vec.unit, norm_3, eq_rd, zero_rd, cyl_3, cyl_4, cyl_5, cyl_6, cyl_7, cyl_8, cyl_16]
      rw [if_neg (by norm_num)]
      simp only [sdiv_3, cyl_17, cyl_18, cyl_19]
    simp only [Plane.distancePointSigned, Vec.scalarProjection, fromPoints_3, hu, dot_3, ok_bind, leftToRight_fl, cyl_0, cyl_1, cyl_2, cyl_3, cyl_6, cyl_20, cyl_21, cyl_22, cyl_23]
  have hl : @Cylinder.length ℝ b64 ⟨[0, 0, 0], [0, 1, 5], 1⟩ = 2870492797671419 / 562949953421312 := by
    simp only [Cylinder.length, norm_3, cyl_3, cyl_4, cyl_5, cyl_6, cyl_7, cyl_8, cyl_16]
  have hq : ∃ d, @Line.distancePoint ℝ b64 ⟨[0, 0, 0], [0, 1, 5]⟩ [0, 1, 5] = .ok d := ⟨_, rfl⟩
  obtain ⟨d, hq⟩ := hq
  refine ⟨⟨[0, 0, 0], [0, 1, 5], 1⟩, ?_, ?_⟩
  · simp only [Cylinder.new, new1D_3, ok_bind, leftToRight_fl, hz, lt_rd, zero_rd]
    norm_num
  · simp only [Cylinder.isPointWithin, Cylinder.betweenCapPlanes, Line.new, Plane.new, newLinePlane, new1D_3, hz,
      ok_bind, leftToRight_fl, List.length_cons, List.length_nil, ne_eq, not_true_eq_false, if_false, Bool.false_eq_true, pure_ok,
      hq, hd, hl, le_rd]
    norm_num

/-- The hypothesis of `C88_triangle_angle_raises` is met: the triangle is accepted (its points have rank two). -/
example : ∃ T, @Triangle.new ℝ b64 rankTwo (arr (vec2 0 0)) (arr (vec2 4118 33)) (arr (vec2 9983 80)) = .ok T := by
  have hc : @Pts.areCollinear ℝ b64 rankTwo none [[0, 0], [4118, 33], [9983, 80]] = .ok false := by
    norm_num [Pts.areCollinear, Pts.affineRank, Pts.unique, npUnique, insertRow, rowEq, rowLt, newPoints, Pts.meanCenter,
      Pts.centroid, Pts.colMeans, rowDim, new1D, vsub, broadcast2, rankTwo, eq_rd, lt_rd, isFinite_rd, List.mapM_cons]
    exact one_lt_two
  exact ⟨⟨[0, 0], [4118, 33], [9983, 80]⟩, by simp [Triangle.new, arr_vec2, newPoints, new1D, isFinite_rd, hc]⟩

end SkSpatial
