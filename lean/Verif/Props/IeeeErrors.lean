import Verif.Props.Ieee11
import Verif.Props.Ieee12
import Verif.Props.Rounding8
import Verif.Props.Rounding9
import Verif.Props.Rounding10
import Verif.Props.Rounding12
import Verif.Props.Rounding14
import Verif.Props.Rounding15
import Verif.Props.Rounding16
import Verif.Props.Rounding23
import Verif.Props.Rounding24
import Verif.Props.RankRounded
import Verif.Props.Rounding25
/-!
# C123: error bounds for IEEE binary64

C96 and C122 say that on moderate coordinates IEEE binary64 computes what rounding with unbounded exponents does; together with the
rounding error theorems (C80, C90, C91, C94, C109, C110, C114, C115) this bounds the errors of the floats the library returns.
-/

namespace SkSpatial
open XReal StdRounding

local notation "rn" => rounded (leftToRight (roundNearest 53))

/-- The unit roundoff of binary64, `2⁻⁵³`. -/
local notation "u53" => ((2 : ℝ) ^ (-((53 : ℕ) : ℤ)))

private theorem u53_le {c : ℝ} (h : 1 / 2 ^ 53 ≤ c) : u53 ≤ c := by
  refine le_trans (le_of_eq ?_) h
  norm_num

theorem line_rn [NeZero n] (p : E n) {v : E n} (hv0 : v ≠ 0) : @Line.new ℝ rn (arr p) (arr v) = .ok ⟨arr p, arr v⟩ :=
  ((C73_constructors std53 (by norm_num) p v).1 hv0).1

theorem plane_rn [NeZero n] (p : E n) {v : E n} (hv0 : v ≠ 0) : @Plane.new ℝ rn (arr p) (arr v) = .ok ⟨arr p, arr v⟩ :=
  ((C73_constructors std53 (by norm_num) p v).1 hv0).2

theorem circle_rn (c : E 2) {r : ℝ} (hr : 0 < r) : @Circle.new ℝ rn (arr c) r = .ok ⟨arr c, r⟩ := by
  have h : ¬ (@PyNum.le ℝ rn r 0 = true) := by rw [le_rd]; simpa using hr
  simp [Circle.new, newBaseSphere, new1D_rd, zero_rd, h]

theorem sphere_rn (c : E 3) {r : ℝ} (hr : 0 < r) : @Sphere.new ℝ rn (arr c) r = .ok ⟨arr c, r⟩ := by
  have h : ¬ (@PyNum.le ℝ rn r 0 = true) := by rw [le_rd]; simpa using hr
  simp [Sphere.new, newBaseSphere, new1D_rd, zero_rd, h]

/-- The default tolerance `1e-9` as stored in binary64. -/
theorem moderate_tol : ∃ r : ℝ, @Tol.default ℝ rn = ⟨r, 0⟩ ∧ @Tol.default XReal ieee = ⟨fin r, fin 0⟩ ∧ Moderate r := by
  obtain ⟨r, h1, h2, -⟩ := ieee_tol
  refine ⟨r, h1, h2, ?_⟩
  have e : roundNearest 53 (1 / 1000000000) = 4835703278458517 / 4835703278458516698824704 := by
    refine rn53 (-30) 4835703278458517 ?_ ?_ ?_ ?_ ?_ <;> norm_num
  rw [tolDefault_rd] at h1
  have : roundNearest 53 (1 / 1000000000) = r := congrArg Tol.rel h1
  rw [← this, e]
  refine moderate_of_dyadic (j := 4835703278458517) (e := -82) (by norm_num) (by norm_num) ?_ (.inr ?_) ?_ <;>
    rw [abs_of_pos (by norm_num)] <;> norm_num

theorem triangle_ie [NeZero n] {ext : NumpyExt XReal} {a b c : E n} {T : Triangle XReal}
    (hT : @Triangle.new XReal ieee ext (xarr a) (xarr b) (xarr c) = .ok T) : T = ⟨xarr a, xarr b, xarr c⟩ := by
  simp only [Triangle.new, ieee_new1D, ok_bind, bind_ok_iff, length_xarr, decide_true, Bool.and_self, Bool.not_true,
    Bool.false_eq_true, if_false] at hT
  obtain ⟨ps, -, col, -, hT⟩ := hT
  split_ifs at hT
  simpa [eq_comm] using hT

theorem triangle_rn_of_rank [NeZero n] (a b c : E n) (ext : NumpyExt ℝ) (h2 : ∀ t A, ext.matrixRank t A = 2) :
    @Triangle.new ℝ rn ext (arr a) (arr b) (arr c) = .ok ⟨arr a, arr b, arr c⟩ := by
  have h := newPoints_rd (fl := leftToRight (roundNearest 53)) (P := [a, b, c]) (by simp)
  obtain ⟨Q, hQ1, hQ2, hQ3⟩ := exists_unique_rows [a, b, c]
  have hQ : Q ≠ [] := by
    rintro rfl
    exact absurd ((hQ3 a).mpr (by simp)) (by simp)
  obtain ⟨R, c', hR, -⟩ := C113_mean_center std53 hQ
  have hu : @Pts.unique ℝ rn (rows [a, b, c]) = .ok (rows Q) := by
    simp only [Pts.unique, npUnique_rounded, hQ1, newPoints_rd hQ]
  simp only [Triangle.new, new1D_rd, ok_bind, length_arr, decide_true, Bool.and_self, Bool.not_true, Bool.false_eq_true, if_false]
  have h' : @newPoints ℝ rn [arr a, arr b, arr c] = .ok (rows [a, b, c]) := h
  simp only [h', ok_bind, Pts.areCollinear, Pts.affineRank, hu, hR, pure_ok, h2]
  simp

theorem triangle_rn [NeZero n] (a b c : E n) : ∃ ext, @Triangle.new ℝ rn ext (arr a) (arr b) (arr c) = .ok ⟨arr a, arr b, arr c⟩ :=
  ⟨⟨fun _ _ => 2, fun _ _ => ([], [], []), fun _ b => .ok b, fun _ b => b, fun _ b => b⟩, triangle_rn_of_rank a b c _ fun _ _ => rfl⟩

/-- C123: `sphere.intersect_line(line)` in binary64. -/
theorem C123_sphere_intersect_line {c q d : E 3} {r : ℝ} (hc : ModerateV c) (hr : Moderate r) (hq : ModerateV q) (hd : ModerateV d)
    {S : Sphere XReal} {L : Line XReal} (hS : @Sphere.new XReal ieee (xarr c) (fin r) = .ok S)
    (hL : @Line.new XReal ieee (xarr q) (xarr d) = .ok L) :
    (r ^ 2 + 70 * u53 * (dist q c ^ 2 + r ^ 2) < Metric.infDist c (lineSet q d) ^ 2 →
      @Sphere.intersectLine XReal ieee S L = .error (.valueError "The line does not intersect the sphere.")) ∧
    (Metric.infDist c (lineSet q d) ^ 2 + 70 * u53 * (dist q c ^ 2 + r ^ 2) < r ^ 2 →
      ∃ y y' x x' : E 3, @Sphere.intersectLine XReal ieee S L = .ok (xarr y, xarr y') ∧
        Metric.sphere c r ∩ lineSet q d = {x, x'} ∧
        dist y x ≤ u53 * (2 * ‖q‖ + 150 * ((dist q c ^ 2 + r ^ 2) / √(r ^ 2 - Metric.infDist c (lineSet q d) ^ 2))) ∧
        dist y' x' ≤ u53 * (2 * ‖q‖ + 150 * ((dist q c ^ 2 + r ^ 2) / √(r ^ 2 - Metric.infDist c (lineSet q d) ^ 2)))) ∧
    (∀ res, @Sphere.intersectLine XReal ieee S L = .ok res → ∃ y y' : E 3, res = (xarr y, xarr y') ∧ ∀ z, z = y ∨ z = y' →
      Metric.infDist z (lineSet q d) ≤ u53 * (2 * ‖q‖ + 60 * (dist q c + r)) ∧
      |dist z c - r| ≤ u53 * (2 * ‖q‖ + 150 * ((dist q c ^ 2 + r ^ 2) / r))) := by
  have hr0 : 0 < r := by
    by_contra h
    rw [(C96_sphere hc hr hq).2.1 (not_lt.mp h)] at hS
    cases hS
  have hd0 : d ≠ 0 := by
    intro h
    rw [((C96_constructors (by norm_num) q hd).2 h).1] at hL
    cases hL
  rw [(C96_sphere hc hr hq).1 hr0] at hS
  rw [((C96_constructors (by norm_num) q hd).1 hd0).1] at hL
  obtain rfl := Except.ok.inj hS
  obtain rfl := Except.ok.inj hL
  rw [C96_sphere_intersect_line hc hr hq hd]
  obtain ⟨k1, k2, k3⟩ := C110_sphere_intersect_line std53 (u53_le (by norm_num)) (sphere_rn c hr0) (line_rn q hd0)
  refine ⟨fun h => by rw [k1 h, asPair_error], fun h => ?_, fun res h => ?_⟩
  · obtain ⟨y, y', x, x', e, h'⟩ := k2 h
    exact ⟨y, y', x, x', by rw [e, asPair_ok], h'⟩
  · cases e : @Sphere.intersectLine ℝ rn ⟨arr c, r⟩ ⟨arr q, arr d⟩ with
    | error err => rw [e, asPair_error] at h; cases h
    | ok w =>
      obtain ⟨y, y', rfl, h'⟩ := k3 w e
      rw [e, asPair_ok] at h
      exact ⟨y, y', (Except.ok.inj h).symm, h'⟩

/-- C123: `circle.intersect_line(line)` in binary64. -/
theorem C123_circle_intersect_line {c q d : E 2} {r : ℝ} (hc : ModerateV c) (hr : Moderate r) (hq : ModerateV q) (hd : ModerateV d)
    {C : Circle XReal} {L : Line XReal} (hC : @Circle.new XReal ieee (xarr c) (fin r) = .ok C)
    (hL : @Line.new XReal ieee (xarr q) (xarr d) = .ok L) {η : ℝ} (hη : η = u53 * (‖q‖ + dist q c + 10)) (hη1 : η ≤ 1 / 1000) :
    (r ^ 2 + 13 * η * (dist q c ^ 2 + r ^ 2) < Metric.infDist c (lineSet q d) ^ 2 →
      @Circle.intersectLine XReal ieee C L = .error (.valueError "The line does not intersect the circle.")) ∧
    (Metric.infDist c (lineSet q d) ^ 2 + 13 * η * (dist q c ^ 2 + r ^ 2) < r ^ 2 →
      ∃ y y' x x' : E 2, @Circle.intersectLine XReal ieee C L = .ok (xarr y, xarr y') ∧
        Metric.sphere c r ∩ lineSet q d = {x, x'} ∧
        dist y x ≤ 2 * u53 * ‖c‖ + 100 * η * ((dist q c ^ 2 + r ^ 2) / √(r ^ 2 - Metric.infDist c (lineSet q d) ^ 2)) ∧
        dist y' x' ≤ 2 * u53 * ‖c‖ + 100 * η * ((dist q c ^ 2 + r ^ 2) / √(r ^ 2 - Metric.infDist c (lineSet q d) ^ 2))) ∧
    (∀ res, @Circle.intersectLine XReal ieee C L = .ok res → ∃ y y' : E 2, res = (xarr y, xarr y') ∧ ∀ z, z = y ∨ z = y' →
      Metric.infDist z (lineSet q d) ≤ 2 * u53 * ‖c‖ + 64 * η * (dist q c + r) ∧
      |dist z c - r| ≤ 2 * u53 * ‖c‖ + 100 * η * ((dist q c ^ 2 + r ^ 2) / r)) := by
  have hr0 : 0 < r := by
    by_contra h
    rw [(C96_circle hc hr hq).2.1 (not_lt.mp h)] at hC
    cases hC
  have hd0 : d ≠ 0 := by
    intro h
    rw [((C96_constructors (by norm_num) q hd).2 h).1] at hL
    cases hL
  rw [(C96_circle hc hr hq).1 hr0] at hC
  rw [((C96_constructors (by norm_num) q hd).1 hd0).1] at hL
  obtain rfl := Except.ok.inj hC
  obtain rfl := Except.ok.inj hL
  rw [C122_circle_intersect_line hc hr hq hd]
  obtain ⟨k1, k2, k3⟩ := C110_circle_intersect_line std53 (circle_rn c hr0) (line_rn q hd0) hη hη1
  refine ⟨fun h => by rw [k1 h, asPair_error], fun h => ?_, fun res h => ?_⟩
  · obtain ⟨y, y', x, x', e, h'⟩ := k2 h
    exact ⟨y, y', x, x', by rw [e, asPair_ok], h'⟩
  · cases e : @Circle.intersectLine ℝ rn ⟨arr c, r⟩ ⟨arr q, arr d⟩ with
    | error err => rw [e, asPair_error] at h; cases h
    | ok w =>
      obtain ⟨y, y', rfl, h'⟩ := k3 w e
      rw [e, asPair_ok] at h
      exact ⟨y, y', (Except.ok.inj h).symm, h'⟩

/-- C123: `circle.intersect_circle(other)` in binary64. -/
theorem C123_circle_intersect_circle {p q : E 2} {r s : ℝ} (hp : ModerateV p) (hr : Moderate r) (hq : ModerateV q) (hs : Moderate s)
    {C D : Circle XReal} (hC : @Circle.new XReal ieee (xarr p) (fin r) = .ok C) (hD : @Circle.new XReal ieee (xarr q) (fin s) = .ok D) :
    (p = q → @Circle.intersectCircle XReal ieee C D = .error (.valueError "The centres of the circles are coincident.")) ∧
    (p ≠ q → r + s < (1 - u53) ^ 5 * dist p q → @Circle.intersectCircle XReal ieee C D =
      .error (.valueError "The circles do not intersect. These circles are separate.")) ∧
    (p ≠ q → dist p q < (1 - u53) ^ 5 * |r - s| → @Circle.intersectCircle XReal ieee C D =
      .error (.valueError "The circles do not intersect. One circle is contained within the other.")) ∧
    (p ≠ q → ∀ x x' : E 2, Metric.sphere p r ∩ Metric.sphere q s = {x, x'} →
      40 * u53 * r * ((r ^ 2 + s ^ 2 + dist p q ^ 2) / dist p q) < (dist x x' / 2) ^ 2 →
      ∃ y y' : E 2, @Circle.intersectCircle XReal ieee C D = .ok (xarr y, xarr y') ∧ ∀ B,
        B = u53 * (5 * ‖p‖ + 75 * (r * ((r ^ 2 + s ^ 2 + dist p q ^ 2) / dist p q) / (dist x x' / 2))) →
        dist y x ≤ B ∧ dist y' x' ≤ B ∨ dist y x' ≤ B ∧ dist y' x ≤ B) ∧
    (∀ res, @Circle.intersectCircle XReal ieee C D = .ok res → ∃ y y' : E 2, res = (xarr y, xarr y') ∧ ∀ z, z = y ∨ z = y' →
      |dist z p - r| ≤ u53 * (5 * ‖p‖ + 45 * r) ∧
      |dist z q - s| ≤ u53 * (5 * ‖p‖ + 55 * ((r ^ 2 + s ^ 2 + dist p q ^ 2) / s))) := by
  have hr0 : 0 < r := by
    by_contra h
    rw [(C96_circle hp hr hq).2.1 (not_lt.mp h)] at hC
    cases hC
  have hs0 : 0 < s := by
    by_contra h
    rw [(C96_circle hq hs hq).2.1 (not_lt.mp h)] at hD
    cases hD
  rw [(C96_circle hp hr hq).1 hr0] at hC
  rw [(C96_circle hq hs hq).1 hs0] at hD
  obtain rfl := Except.ok.inj hC
  obtain rfl := Except.ok.inj hD
  rw [C122_circle_intersect_circle hp hq hr hs]
  obtain ⟨k1, k2, k3, k4, k5⟩ := C110_circle_intersect_circle std53 (u53_le (by norm_num)) (circle_rn p hr0) (circle_rn q hs0)
  refine ⟨fun h => by rw [k1 h, asPair_error], fun h h' => by rw [k2 h h', asPair_error], fun h h' => by rw [k3 h h', asPair_error],
    fun h x x' hx hx' => ?_, fun res h => ?_⟩
  · obtain ⟨y, y', e, h'⟩ := k4 h x x' hx hx'
    exact ⟨y, y', by rw [e, asPair_ok], h'⟩
  · cases e : @Circle.intersectCircle ℝ rn ⟨arr p, r⟩ ⟨arr q, s⟩ with
    | error err => rw [e, asPair_error] at h; cases h
    | ok w =>
      obtain ⟨y, y', rfl, h'⟩ := k5 w e
      rw [e, asPair_ok] at h
      exact ⟨y, y', (Except.ok.inj h).symm, h'⟩

/-- C123: `line.intersect_line(other, check_coplanar=False)` in binary64: near the point of the line nearest to the other line. -/
theorem C123_intersect_line [NeZero n] (hn : n ≤ 3) [e1 : NumpyExt XReal] {p d q e : E n} (hp : ModerateV p) (hd : ModerateV d)
    (hq : ModerateV q) (he : ModerateV e) {L M : Line XReal} (hL : @Line.new XReal ieee (xarr p) (xarr d) = .ok L)
    (hM : @Line.new XReal ieee (xarr q) (xarr e) = .ok M) (hc : |cosE d e| < 1 - 15 / 10 ^ 10) :
    ∃ y x : E n, @Line.intersectLine XReal ieee e1 L M false (@Tol.default XReal ieee) = .ok (xarr y) ∧
      x ∈ lineSet p d ∧ (∀ z ∈ lineSet p d, Metric.infDist x (lineSet q e) ≤ Metric.infDist z (lineSet q e)) ∧
      dist y x ≤ u53 * (2 * ‖p‖ + 130 * (√(1 - cosE d e ^ 2))⁻¹ ^ 2 * dist p q) ∧
      Metric.infDist y (lineSet p d) ≤ u53 * (2 * ‖p‖ + 20 * (√(1 - cosE d e ^ 2))⁻¹ * dist p q) ∧
      Metric.infDist y (lineSet q e) ≤
        Metric.infDist x (lineSet q e) + u53 * (2 * ‖p‖ + 130 * (√(1 - cosE d e ^ 2))⁻¹ * dist p q) := by
  have hn' : n ≤ 2 ^ 53 := hn.trans (by norm_num)
  have hd0 : d ≠ 0 := by
    intro h
    rw [((C96_constructors hn' p hd).2 h).1] at hL
    cases hL
  have he0 : e ≠ 0 := by
    intro h
    rw [((C96_constructors hn' q he).2 h).1] at hM
    cases hM
  rw [((C96_constructors hn' p hd).1 hd0).1] at hL
  rw [((C96_constructors hn' q he).1 he0).1] at hM
  obtain rfl := Except.ok.inj hL
  obtain rfl := Except.ok.inj hM
  let e2 : NumpyExt ℝ := ⟨fun _ _ => 0, fun _ _ => ([], [], []), fun _ b => .ok b, fun _ b => b, fun _ b => b⟩
  obtain ⟨y, x, k, k'⟩ := C109_intersect_line hn std53 (u53_le (by norm_num)) (ext := e2) (line_rn p hd0) (line_rn q he0) hc false
    (fun h => absurd h (by simp))
  refine ⟨y, x, ?_, k'⟩
  rw [C122_intersect_line hn (e1 := e1) (e2 := e2) hp hd hq he, k, asFloats_ok]

/-- C123: `plane.intersect_line(line)` in binary64. -/
theorem C123_plane_intersect_line [NeZero n] (hn : n ≤ 2 ^ 53) {p m q d : E n} (hp : ModerateV p) (hm : ModerateV m)
    (hq : ModerateV q) (hd : ModerateV d) {P : Plane XReal} {L : Line XReal} (hP : @Plane.new XReal ieee (xarr p) (xarr m) = .ok P)
    (hL : @Line.new XReal ieee (xarr q) (xarr d) = .ok L) (hc : 4 * (n + 2) * u53 ≤ |cosE m d|) (hne : inner ℝ m d ≠ (0 : ℝ)) :
    ∃ y x : E n, @Plane.intersectLine XReal ieee (@Tol.default XReal ieee) P L = .ok (xarr y) ∧
      x ∈ planeSet p m ∧ x ∈ lineSet q d ∧
      dist y x ≤ u53 * (2 * ‖q‖ + (8 * n + 32) * |cosE m d|⁻¹ ^ 2 * dist q p) ∧
      |signedDist p m y| ≤ u53 * (2 * ‖q‖ + (8 * n + 32) * |cosE m d|⁻¹ * dist q p) ∧
      ∃ z ∈ lineSet q d, dist y z ≤ u53 * (2 * ‖q‖ + 20 * |cosE m d|⁻¹ * dist q p) := by
  have hm0 : m ≠ 0 := by rintro rfl; simp at hne
  have hd0 : d ≠ 0 := by rintro rfl; simp at hne
  rw [((C96_constructors hn p hm).1 hm0).2] at hP
  rw [((C96_constructors hn q hd).1 hd0).1] at hL
  obtain rfl := Except.ok.inj hP
  obtain rfl := Except.ok.inj hL
  obtain ⟨y, x, k, k'⟩ := C94_plane_intersect_line std53 (plane_rn p hm0) (line_rn q hd0) hc hne
  refine ⟨y, x, ?_, k'⟩
  rw [C96_plane_intersect_line hn hp hm hq hd, k, asFloats_ok]

/-- C123: `v.angle_between(w)` of `n`-dimensional and `v.angle_signed(w)` of 2D vectors, in binary64. -/
theorem C123_angles [NeZero n] (hn : n ≤ 2 ^ 53) {x y : E n} (hx : ModerateV x) (hy : ModerateV y) (hx0 : x ≠ 0) (hy0 : y ≠ 0)
    {v w : E 2} (hv : ModerateV v) (hw : ModerateV w) (hv0 : v ≠ 0) (hw0 : w ≠ 0) :
    (∃ θ, @Vec.angleBetween XReal ieee (xarr x) (xarr y) = .ok (fin θ) ∧
      |θ - InnerProductGeometry.angle x y| ≤ Real.pi * (Real.sqrt ((1 / (1 - u53) ^ (2 * n + 6) - 1) / 2) + u53)) ∧
    ∃ θ θ' : ℝ, Vec.angleSigned (arr v) (arr w) = .ok θ ∧ @Vec.angleSigned XReal ieee (xarr v) (xarr w) = .ok (fin θ') ∧
      AngleNear (24 * u53) θ' θ ∧ (|θ| + 24 * u53 < Real.pi → |θ' - θ| ≤ 24 * u53) := by
  constructor
  · obtain ⟨θ, k, k'⟩ := C90_angle_between std53 x y hx0 hy0
    exact ⟨θ, by rw [(C96_angles hn hx hy).2.1, k, asFloat_ok], k'⟩
  · obtain ⟨θ, θ', k, k', k''⟩ := (C114_angle_signed_closed_form std53 (u53_le (by norm_num))).2 hv0 hw0
    refine ⟨θ, θ', k, ?_, k''⟩
    rw [(C122_angle_signed hv hw (moderate_vec3 moderate_zero moderate_zero moderate_zero) (moderate_vec3 moderate_zero moderate_zero moderate_zero)
      (moderate_vec3 moderate_zero moderate_zero moderate_zero)).1, k', asFloat_ok]

/-- C123: areas, volumes, signed areas and centroids in binary64. -/
theorem C123_measure [NeZero n] (hn : n ≤ 3) {a b c d : E n} (ha : ModerateV a) (hb : ModerateV b) (hc : ModerateV c) (hd : ModerateV d)
    {m : ℕ} [NeZero m] (hm : 3 ≤ m) (hm' : m ≤ 2 ^ 53) {v : Fin m → E 2} (hv : ∀ i, ModerateV (v i))
    {P : List (E n)} (hP : P ≠ []) (hl : P.length ≤ 2 ^ 53) (hPm : ∀ x ∈ P, ModerateV x) :
    (∃ s s', @Measurement.areaTriangle XReal ieee (xarr a) (xarr b) (xarr c) = .ok (fin s') ∧
      Measurement.areaTriangle (arr a) (arr b) (arr c) = .ok s ∧
      |s' - s| ≤ (((1 - u53) ^ 9)⁻¹ - 1) * (dist a b * dist a c) / Real.sqrt 2) ∧
    (∃ s s', @Measurement.volumeTetrahedron XReal ieee (xarr a) (xarr b) (xarr c) (xarr d) = .ok (fin s') ∧
      Measurement.volumeTetrahedron (arr a) (arr b) (arr c) (arr d) = .ok s ∧
      |s' - s| ≤ Real.sqrt 2 / 6 * (((1 - u53) ^ 11)⁻¹ - 1) * (dist a b * dist a c * dist a d)) ∧
    (∃ s', @Measurement.areaSigned XReal ieee (xrows (List.ofFn v)) = .ok (fin s') ∧
      |s' - shoelace v| ≤ (((1 - u53) ^ (m + 4))⁻¹ - 1) *
        (1 / 2 * ∑ i, (|v (i - 1) 0 * v i 1| + |v i 0 * v (i - 1) 1|))) ∧
    ∃ c' : E n, @Pts.centroid XReal ieee (xrows P) = .ok (xarr c') ∧
      ∀ j, |c' j - ((P.length : ℝ)⁻¹ • P.sum) j| ≤
        (((1 - u53) ^ (P.length + 1))⁻¹ - 1) * ((P.map fun x => |x j|).sum / P.length) := by
  obtain ⟨-, m1, m2⟩ := C96_measure hn ha hb hc hd
  refine ⟨?_, ?_, ?_, ?_⟩
  · obtain ⟨s, s', k, k'⟩ := C91_area_triangle hn std53 a b c
    exact ⟨s, s', by rw [m1, k, asFloat_ok], k'⟩
  · obtain ⟨s, s', k, k'⟩ := C91_volume_tetrahedron hn std53 a b c d
    exact ⟨s, s', by rw [m2, k, asFloat_ok], k'⟩
  · obtain ⟨s', k, k'⟩ := C91_area_signed hm std53 v
    refine ⟨s', ?_, k'⟩
    rw [C122_area_signed (by simpa using NeZero.ne m) (by simpa using hm') (by simpa [List.mem_ofFn] using hv), k, asFloat_ok]
  · obtain ⟨c', k, k'⟩ := C91_centroid std53 hP
    exact ⟨c', by rw [(C122_points (hn.trans (by norm_num)) hP hl hPm).1, k, asFloats_ok], k'⟩

/-- C123: `Plane.from_vectors(point, v, w)` in binary64. -/
theorem C123_from_vectors [NeZero n] (hn : n ≤ 3) {p v w : E n} (hp : ModerateV p) (hv : ModerateV v) (hw : ModerateV w) :
    (v ≠ 0 → w ≠ 0 → |cosE v w| < 1 - 15 / 10000000000 →
      ∃ P, @Plane.fromVectors XReal ieee (@Tol.default XReal ieee) (xarr p) (xarr v) (xarr w) = .ok P) ∧
    ∀ P, @Plane.fromVectors XReal ieee (@Tol.default XReal ieee) (xarr p) (xarr v) (xarr w) = .ok P →
      ∃ N : E 3, P = ⟨xarr (pad3 p), xarr N⟩ ∧ ‖N - crossE (pad3 v) (pad3 w)‖ ≤ 3 * u53 * (‖v‖ * ‖w‖) ∧
        ∀ s t : ℝ, |signedDist (pad3 p) N (pad3 (p + s • v + t • w))| ≤ 6 * u53 / √(1 - cosE v w ^ 2) * ‖s • v + t • w‖ := by
  have hu : (2 * n + 6) * u53 ≤ 4 / 10000000000 := by
    have h3 : (n : ℝ) ≤ 3 := by exact_mod_cast hn
    calc (2 * n + 6) * u53 ≤ 12 * u53 := by gcongr; linarith
      _ ≤ _ := by norm_num
  obtain ⟨k1, k2⟩ := C115_from_vectors hn std53 hu p v w
  obtain ⟨r, r1, r2, r3⟩ := moderate_tol
  have h := (C122_plane_from_vectors hn hp hv hw).1 r 0 r3
  rw [r1] at k1 k2
  rw [r2, h]
  refine ⟨fun h1 h2 h3 => ?_, fun P hP => ?_⟩
  · obtain ⟨P, k⟩ := k1 h1 h2 h3
    rw [k]
    exact ⟨_, rfl⟩
  · cases e : @Plane.fromVectors ℝ rn ⟨r, 0⟩ (arr p) (arr v) (arr w) with
    | error err => rw [e] at hP; cases hP
    | ok P' =>
      obtain ⟨N, rfl, k⟩ := k2 P' e
      rw [e] at hP
      exact ⟨N, (Except.ok.inj hP).symm, k⟩

/-- C123: `triangle.classify()` and `triangle.is_right()` in binary64. -/
theorem C123_triangle [NeZero n] (hn : n ≤ 1000) {ext : NumpyExt XReal} {a b c : E n} (ha : ModerateV a) (hb : ModerateV b) (hc : ModerateV c)
    {T : Triangle XReal} (hT : @Triangle.new XReal ieee ext (xarr a) (xarr b) (xarr c) = .ok T) (hab : a ≠ b) (hbc : b ≠ c) (hca : c ≠ a) :
    (∃ s, @Triangle.classify XReal ieee (@Tol.default XReal ieee) T = .ok s ∧
      (RelDiff (7 / 10 ^ 10) (dist a b) (dist b c) → RelDiff (7 / 10 ^ 10) (dist b c) (dist c a) →
        RelDiff (7 / 10 ^ 10) (dist c a) (dist a b) → s = "equilateral") ∧
      (¬ RelDiff (13 / 10 ^ 10) (dist a b) (dist b c) → ¬ RelDiff (13 / 10 ^ 10) (dist b c) (dist c a) →
        ¬ RelDiff (13 / 10 ^ 10) (dist c a) (dist a b) → s = "scalene")) ∧
    ∃ w, @Triangle.isRight XReal ieee (@Tol.default XReal ieee) T = .ok w ∧
      (EuclideanGeometry.angle b a c = Real.pi / 2 ∨ EuclideanGeometry.angle a b c = Real.pi / 2 ∨
        EuclideanGeometry.angle a c b = Real.pi / 2 → w = true) ∧
      (w = true → ∃ p q r : ℝ, ({p, q, r} : Multiset ℝ) = {dist a b, dist b c, dist c a} ∧
        RelDiff (13 / 10 ^ 10) (p ^ 2 + q ^ 2) (r ^ 2)) := by
  obtain rfl := triangle_ie hT
  obtain ⟨ext', hT'⟩ := triangle_rn a b c
  have hu : (n + 7) * u53 ≤ 9 / 100000000000 := by
    have h3 : (n : ℝ) ≤ 1000 := by exact_mod_cast hn
    calc (n + 7) * u53 ≤ 1007 * u53 := by gcongr; linarith
      _ ≤ _ := by norm_num
  obtain ⟨r, r1, r2, r3⟩ := moderate_tol
  obtain ⟨-, -, -, -, -, h⟩ := C122_triangle (hn.trans (by norm_num)) ha hb hc
  obtain ⟨h1, h2⟩ := h r 0 r3
  obtain ⟨s, s1, s2, -, -, -, s3⟩ := C80_classify std53 hu hT' hab hbc hca
  obtain ⟨w, w1, w2⟩ := C80_is_right std53 hu hT' hab hbc hca
  rw [r1] at s1 w1
  rw [r2, h1, h2]
  exact ⟨⟨s, s1, s2, s3⟩, w, w1, w2⟩

/-- C123: `triangle.angle(vertex)` in binary64. -/
theorem C123_triangle_angle [NeZero n] (hn : n ≤ 2 ^ 53) {ext : NumpyExt XReal} {a b c : E n} (ha : ModerateV a) (hb : ModerateV b)
    (hc : ModerateV c) {T : Triangle XReal} (hT : @Triangle.new XReal ieee ext (xarr a) (xarr b) (xarr c) = .ok T)
    (hab : a ≠ b) (hbc : b ≠ c) (hca : c ≠ a) :
    ∀ v p q r, (v = "A" ∧ (p, q, r) = (a, b, c)) ∨ (v = "B" ∧ (p, q, r) = (b, c, a)) ∨ (v = "C" ∧ (p, q, r) = (c, a, b)) →
      (@Triangle.angle XReal ieee T v = .error (.valueError "math domain error") ∨
        ∃ θ, @Triangle.angle XReal ieee T v = .ok (fin θ) ∧ |θ - EuclideanGeometry.angle q p r| ≤
          Real.pi * (Real.sqrt ((((1 - u53) ^ (2 * n + 16))⁻¹ - 1) * lawCond p q r / 2) + u53)) ∧
      (|Real.cos (EuclideanGeometry.angle q p r)| + (((1 - u53) ^ (2 * n + 16))⁻¹ - 1) * lawCond p q r ≤ 1 →
        ∃ θ, @Triangle.angle XReal ieee T v = .ok (fin θ)) := by
  obtain rfl := triangle_ie hT
  obtain ⟨ext', hT'⟩ := triangle_rn a b c
  obtain ⟨-, -, -, h, -⟩ := C122_triangle hn ha hb hc
  intro v p q r hv
  obtain ⟨k1, k2⟩ := C90_triangle_angle std53 (u53_le (by norm_num)) hT' hab hbc hca v p q r hv
  rw [h v]
  constructor
  · rcases k1 with k | ⟨θ, k, k'⟩
    · exact .inl (by rw [k, asFloat_error])
    · exact .inr ⟨θ, by rw [k, asFloat_ok], k'⟩
  · intro hcos
    obtain ⟨θ, k⟩ := k2 hcos
    exact ⟨θ, by rw [k, asFloat_ok]⟩

/-! ### The hypotheses can be met -/

theorem basis3_ne : vec3 ((1 : ℤ) : ℝ) 0 0 ≠ 0 := by
  intro h
  have := congrArg (fun x : E 3 => x 0) h
  simp [vec3] at this

/-- The sphere of radius 4 around `(1, 2, 3)` and the line through its centre along the first axis: two points are returned. -/
example : ∃ (c q d : E 3) (r : ℝ) (S : Sphere XReal) (L : Line XReal), ModerateV c ∧ Moderate r ∧ ModerateV q ∧ ModerateV d ∧
    @Sphere.new XReal ieee (xarr c) (fin r) = .ok S ∧ @Line.new XReal ieee (xarr q) (xarr d) = .ok L ∧
    Metric.infDist c (lineSet q d) ^ 2 + 70 * u53 * (dist q c ^ 2 + r ^ 2) < r ^ 2 := by
  have hc : ModerateV (vec3 ((1 : ℤ) : ℝ) ((2 : ℤ) : ℝ) ((3 : ℤ) : ℝ)) :=
    moderate_vec3 (moderate_int (by norm_num)) (moderate_int (by norm_num)) (moderate_int (by norm_num))
  have hd : ModerateV (vec3 ((1 : ℤ) : ℝ) 0 0) := moderate_vec3 (moderate_int (by norm_num)) moderate_zero moderate_zero
  have hr : Moderate ((4 : ℤ) : ℝ) := moderate_int (by norm_num)
  refine ⟨_, _, _, _, _, _, hc, hr, hc, hd, (C96_sphere hc hr hc).1 (by norm_num),
    ((C96_constructors (by norm_num) _ hd).1 basis3_ne).1, ?_⟩
  rw [Metric.infDist_zero_of_mem (show vec3 ((1 : ℤ) : ℝ) ((2 : ℤ) : ℝ) ((3 : ℤ) : ℝ) ∈ lineSet (vec3 ((1 : ℤ) : ℝ) ((2 : ℤ) : ℝ) ((3 : ℤ) : ℝ)) (vec3 ((1 : ℤ) : ℝ) 0 0) from ⟨0, by simp⟩), dist_self]
  norm_num

/-- The circle of radius 4 around the origin and a line through it. -/
example : ∃ (c q d : E 2) (r : ℝ) (C : Circle XReal) (L : Line XReal), ModerateV c ∧ Moderate r ∧ ModerateV q ∧ ModerateV d ∧
    @Circle.new XReal ieee (xarr c) (fin r) = .ok C ∧ @Line.new XReal ieee (xarr q) (xarr d) = .ok L ∧
    u53 * (‖q‖ + dist q c + 10) ≤ 1 / 1000 ∧
    Metric.infDist c (lineSet q d) ^ 2 + 13 * (u53 * (‖q‖ + dist q c + 10)) * (dist q c ^ 2 + r ^ 2) < r ^ 2 := by
  have hc : ModerateV (0 : E 2) := fun i => moderate_zero
  have hd : ModerateV (vec2 ((1 : ℤ) : ℝ) ((2 : ℤ) : ℝ)) := moderate_vec2 (moderate_int (by norm_num)) (moderate_int (by norm_num))
  have hd0 : vec2 ((1 : ℤ) : ℝ) ((2 : ℤ) : ℝ) ≠ 0 := by
    intro h
    have := congrArg (fun x : E 2 => x 0) h
    simp [vec2] at this
  have hr : Moderate ((4 : ℤ) : ℝ) := moderate_int (by norm_num)
  refine ⟨_, _, _, _, _, _, hc, hr, hc, hd, (C96_circle hc hr hc).1 (by norm_num), ((C96_constructors (by norm_num) _ hd).1 hd0).1, ?_, ?_⟩
  · rw [norm_zero, dist_self]; norm_num
  · rw [Metric.infDist_zero_of_mem (show (0 : E 2) ∈ lineSet 0 (vec2 ((1 : ℤ) : ℝ) ((2 : ℤ) : ℝ)) from ⟨0, by simp⟩), norm_zero, dist_self]
    norm_num

/-- Vertices of a triangle with moderate coordinates, distinct, and accepted by the constructor (with a rank of 2). -/
example : ∃ (ext : NumpyExt XReal) (a b c : E 2) (T : Triangle XReal), ModerateV a ∧ ModerateV b ∧ ModerateV c ∧
    @Triangle.new XReal ieee ext (xarr a) (xarr b) (xarr c) = .ok T ∧ a ≠ b ∧ b ≠ c ∧ c ≠ a := by
  have ha : ModerateV (vec2 ((0 : ℤ) : ℝ) ((0 : ℤ) : ℝ)) := moderate_vec2 (moderate_int (by norm_num)) (moderate_int (by norm_num))
  have hb : ModerateV (vec2 ((4 : ℤ) : ℝ) ((0 : ℤ) : ℝ)) := moderate_vec2 (moderate_int (by norm_num)) (moderate_int (by norm_num))
  have hc : ModerateV (vec2 ((0 : ℤ) : ℝ) ((3 : ℤ) : ℝ)) := moderate_vec2 (moderate_int (by norm_num)) (moderate_int (by norm_num))
  refine ⟨⟨fun _ _ => 2, fun _ _ => ([], [], []), fun _ b => .ok b, fun _ b => b, fun _ b => b⟩, _, _, _, _, ha, hb, hc,
    (C122_triangle_new _ ha hb hc).trans (congrArg asTriangle (triangle_rn_of_rank _ _ _ _ fun _ _ => rfl)), ?_, ?_, ?_⟩
  · intro h
    have := congrArg (fun x : E 2 => x 0) h
    simp [vec2] at this
  · intro h
    have := congrArg (fun x : E 2 => x 0) h
    simp [vec2] at this
  · intro h
    have := congrArg (fun x : E 2 => x 1) h
    simp [vec2] at this

end SkSpatial
