import Verif.Props.IeeeErrors
import Verif.Props.Rounding2
import Verif.Props.Rounding6
import Verif.Props.Rounding31
/-!
# C124: predicates, measures, segments and batches in IEEE binary64

As in C123: error bounds for what the library returns when it computes with binary64 floats, on moderate coordinates.
-/

namespace SkSpatial
open XReal StdRounding

local notation "rn" => rounded (leftToRight (roundNearest 53))

/-- The unit roundoff of binary64, `2⁻⁵³`. -/
local notation "u53" => ((2 : ℝ) ^ (-((53 : ℕ) : ℤ)))

private theorem u53_le {c : ℝ} (h : 1 / 2 ^ 53 ≤ c) : u53 ≤ c := by
  refine le_trans (le_of_eq ?_) h
  norm_num

private theorem u53_dim {n : ℕ} (hn : n ≤ 1000) : (2 * (n : ℝ) + 6) * u53 ≤ 4 / 10000000000 ∧ ((n : ℝ) + 7) * u53 ≤ 9 / 100000000000 := by
  have h : (n : ℝ) ≤ 1000 := by exact_mod_cast hn
  constructor
  · calc (2 * (n : ℝ) + 6) * u53 ≤ (2 * 1000 + 6) * u53 := by gcongr
      _ ≤ _ := by norm_num
  · calc ((n : ℝ) + 7) * u53 ≤ (1000 + 7) * u53 := by gcongr
      _ ≤ _ := by norm_num

theorem line_of_new_ie [NeZero n] (hn : n ≤ 2 ^ 53) {p v : E n} (hv : ModerateV v) {L : Line XReal}
    (hL : @Line.new XReal ieee (xarr p) (xarr v) = .ok L) : v ≠ 0 ∧ L = ⟨xarr p, xarr v⟩ := by
  have hv0 : v ≠ 0 := by
    intro h
    rw [((C96_constructors hn p hv).2 h).1] at hL
    cases hL
  rw [((C96_constructors hn p hv).1 hv0).1] at hL
  exact ⟨hv0, (Except.ok.inj hL).symm⟩

theorem plane_of_new_ie [NeZero n] (hn : n ≤ 2 ^ 53) {p v : E n} (hv : ModerateV v) {P : Plane XReal}
    (hP : @Plane.new XReal ieee (xarr p) (xarr v) = .ok P) : v ≠ 0 ∧ P = ⟨xarr p, xarr v⟩ := by
  have hv0 : v ≠ 0 := by
    intro h
    rw [((C96_constructors hn p hv).2 h).2] at hP
    cases hP
  rw [((C96_constructors hn p hv).1 hv0).2] at hP
  exact ⟨hv0, (Except.ok.inj hP).symm⟩

theorem sphere_of_new_ie {c : E 3} {r : ℝ} (hc : ModerateV c) (hr : Moderate r) {S : Sphere XReal}
    (hS : @Sphere.new XReal ieee (xarr c) (fin r) = .ok S) : 0 < r ∧ S = ⟨xarr c, fin r⟩ := by
  have hr0 : 0 < r := by
    by_contra h
    rw [(C96_sphere hc hr hc).2.1 (not_lt.mp h)] at hS
    cases hS
  rw [(C96_sphere hc hr hc).1 hr0] at hS
  exact ⟨hr0, (Except.ok.inj hS).symm⟩

theorem circle_of_new_ie {c : E 2} {r : ℝ} (hc : ModerateV c) (hr : Moderate r) {C : Circle XReal}
    (hC : @Circle.new XReal ieee (xarr c) (fin r) = .ok C) : 0 < r ∧ C = ⟨xarr c, fin r⟩ := by
  have hr0 : 0 < r := by
    by_contra h
    rw [(C96_circle hc hr hc).2.1 (not_lt.mp h)] at hC
    cases hC
  rw [(C96_circle hc hr hc).1 hr0] at hC
  exact ⟨hr0, (Except.ok.inj hC).symm⟩

theorem cylinder_of_new_ie {p v : E 3} {r : ℝ} (hv : ModerateV v) {Y : Cylinder XReal}
    (hY : @Cylinder.new XReal ieee (xarr p) (xarr v) (fin r) = .ok Y) : v ≠ 0 ∧ 0 < r ∧ Y = ⟨xarr p, xarr v, fin r⟩ := by
  classical
  have hz := isZero_default_ie (by norm_num) (hv.rv.mono (by norm_num) (by norm_num : (50 : ℤ) ≤ 51))
  simp only [Cylinder.new, ieee_new1D, ok_bind, length_xarr, ne_eq, not_true_eq_false, if_false, hz] at hY
  split_ifs at hY with h1 h2
  refine ⟨by simpa using h1, ?_, (Except.ok.inj hY).symm⟩
  rw [ieee_zero, ieee_lt, lt_rd, zero_rd] at h2
  simpa using h2

theorem cylinder_rn (p : E 3) {v : E 3} {r : ℝ} (hv0 : v ≠ 0) (hr : 0 < r) :
    @Cylinder.new ℝ rn (arr p) (arr v) r = .ok ⟨arr p, arr v, r⟩ := by
  classical
  have hz := C73_is_zero std53 (by norm_num) v
  simp [Cylinder.new, new1D_rd, hz, hv0, lt_rd, zero_rd, hr]

/-- C124: `line.distance_point` and `line.contains_point` in binary64: the containment test with absolute tolerance `s` accepts
every point of a slightly smaller and no point outside a slightly larger tube around the line. -/
theorem C124_line [NeZero n] (hn : n ≤ 2 ^ 53) {p v x : E n} (hp : ModerateV p) (hv : ModerateV v) (hx : ModerateV x) {L : Line XReal}
    (hL : @Line.new XReal ieee (xarr p) (xarr v) = .ok L) :
    (∃ d e, @Line.distancePoint XReal ieee L (xarr x) = .ok (fin d) ∧ ApproxRel u53 ((n + 5) / 2) d e ∧
      |e - dist x (foot p v x)| ≤ ((1 - u53)⁻¹ - 1) * ‖p‖ + (((1 - u53) ^ (2 * n + 6))⁻¹ - 1) * dist x p) ∧
    ∀ t s : ℝ, Moderate t → 0 ≤ t → t ≤ 1 / 4 → 0 ≤ s →
      ∃ b, @Line.containsPoint XReal ieee ⟨fin t, fin s⟩ L (xarr x) = .ok b ∧
        ((1 + u53) * (((1 - u53) ^ ((n + 5) / 2 : ℝ))⁻¹ * (dist x (foot p v x) +
          (((1 - u53)⁻¹ - 1) * ‖p‖ + (((1 - u53) ^ (2 * n + 6))⁻¹ - 1) * dist x p))) ≤ s → b = true) ∧
        (b = true → (1 - u53) * ((1 - u53) ^ ((n + 5) / 2 : ℝ) * (dist x (foot p v x) -
          (((1 - u53)⁻¹ - 1) * ‖p‖ + (((1 - u53) ^ (2 * n + 6))⁻¹ - 1) * dist x p))) ≤ s) := by
  obtain ⟨hv0, rfl⟩ := line_of_new_ie hn hv hL
  obtain ⟨-, h1, h2⟩ := C96_line hn hp hv hx hv0
  constructor
  · obtain ⟨d, e, k, k'⟩ := C78_line_distance std53 p v x hv0
    exact ⟨d, e, by rw [h1, k, asFloat_ok], k'⟩
  · intro t s ht ht0 ht1 hs
    obtain ⟨b, k, k'⟩ := C79_line_contains std53 (u53_le (by norm_num)) p v x hv0 ht0 ht1 hs
    exact ⟨b, by rw [h2 t s ht, k], k'⟩

/-- C124: `plane.contains_point` in binary64. -/
theorem C124_plane_contains [NeZero n] (hn : n ≤ 2 ^ 53) {p v x : E n} (hp : ModerateV p) (hv : ModerateV v) (hx : ModerateV x) {P : Plane XReal}
    (hP : @Plane.new XReal ieee (xarr p) (xarr v) = .ok P) {t s : ℝ} (ht : Moderate t) (ht0 : 0 ≤ t) (ht1 : t ≤ 1 / 4) (hs : 0 ≤ s) :
    ∃ b, @Plane.containsPoint XReal ieee ⟨fin t, fin s⟩ P (xarr x) = .ok b ∧
      ((1 + u53) * (|signedDist p v x| + (((1 - u53) ^ ((3 * n + 9) / 2 : ℝ))⁻¹ - 1) * dist x p) ≤ s → b = true) ∧
      (b = true → (1 - u53) * (|signedDist p v x| - (((1 - u53) ^ ((3 * n + 9) / 2 : ℝ))⁻¹ - 1) * dist x p) ≤ s) := by
  obtain ⟨hv0, rfl⟩ := plane_of_new_ie hn hv hP
  obtain ⟨b, k, k'⟩ := C79_plane_contains std53 (u53_le (by norm_num)) p v x hv0 ht0 ht1 hs
  exact ⟨b, by rw [(C96_plane hn hp hv hx hv0).2.2.2.2 t s ht, k], k'⟩

/-- C124: `distance_point` and `contains_point` of spheres in binary64. -/
theorem C124_sphere {c x : E 3} {r : ℝ} (hc : ModerateV c) (hr : Moderate r) (hx : ModerateV x) {S : Sphere XReal}
    (hS : @Sphere.new XReal ieee (xarr c) (fin r) = .ok S) {t s : ℝ} (ht : Moderate t) (ht0 : 0 ≤ t) (ht1 : t ≤ 1 / 4) (hs : 0 ≤ s) :
    (∃ d, @Sphere.distancePoint XReal ieee S (xarr x) = .ok (fin d) ∧
      |d - (|dist c x - r|)| ≤ (((1 - u53) ^ (5 : ℝ))⁻¹ - 1) * (dist c x + r)) ∧
    ∃ b, @Sphere.containsPoint XReal ieee ⟨fin t, fin s⟩ S (xarr x) = .ok b ∧
      ((1 + u53) * (|dist c x - r| + (((1 - u53) ^ (5 : ℝ))⁻¹ - 1) * (dist c x + r)) ≤ s → b = true) ∧
      (b = true → (1 - u53) * (|dist c x - r| - (((1 - u53) ^ (5 : ℝ))⁻¹ - 1) * (dist c x + r)) ≤ s) := by
  obtain ⟨hr0, rfl⟩ := sphere_of_new_ie hc hr hS
  obtain ⟨-, -, h1, -, h2⟩ := C96_sphere hc hr hx
  have e : (((3 : ℕ) : ℝ) + 7) / 2 = 5 := by norm_num
  obtain ⟨d, -, k, k'⟩ := C78_sphere_distance std53 c x r hr0
  obtain ⟨b, l, -, l'⟩ := C79_sphere_contains std53 (u53_le (by norm_num)) c x r hr0 ht0 ht1 hs
  rw [e] at k' l'
  exact ⟨⟨d, by rw [h1, k, asFloat_ok], k'⟩, b, by rw [h2 t s ht, l], l'⟩

/-- C124: `distance_point` and `contains_point` of circles in binary64. -/
theorem C124_circle {c x : E 2} {r : ℝ} (hc : ModerateV c) (hr : Moderate r) (hx : ModerateV x) {C : Circle XReal}
    (hC : @Circle.new XReal ieee (xarr c) (fin r) = .ok C) {t s : ℝ} (ht : Moderate t) (ht0 : 0 ≤ t) (ht1 : t ≤ 1 / 4) (hs : 0 ≤ s) :
    (∃ d, @Circle.distancePoint XReal ieee C (xarr x) = .ok (fin d) ∧
      |d - (|dist c x - r|)| ≤ (((1 - u53) ^ (9 / 2 : ℝ))⁻¹ - 1) * (dist c x + r)) ∧
    ∃ b, @Circle.containsPoint XReal ieee ⟨fin t, fin s⟩ C (xarr x) = .ok b ∧
      ((1 + u53) * (|dist c x - r| + (((1 - u53) ^ (9 / 2 : ℝ))⁻¹ - 1) * (dist c x + r)) ≤ s → b = true) ∧
      (b = true → (1 - u53) * (|dist c x - r| - (((1 - u53) ^ (9 / 2 : ℝ))⁻¹ - 1) * (dist c x + r)) ≤ s) := by
  obtain ⟨hr0, rfl⟩ := circle_of_new_ie hc hr hC
  obtain ⟨-, -, h1, -, h2⟩ := C96_circle hc hr hx
  have e : (((2 : ℕ) : ℝ) + 7) / 2 = 9 / 2 := by norm_num
  obtain ⟨d, k, -, k'⟩ := C78_sphere_distance std53 c x r hr0
  obtain ⟨b, -, l, l'⟩ := C79_sphere_contains std53 (u53_le (by norm_num)) c x r hr0 ht0 ht1 hs
  rw [e] at k' l'
  exact ⟨⟨d, by rw [h1, k, asFloat_ok], k'⟩, b, by rw [h2 t s ht, l], l'⟩

/-- C124: circumferences, areas and volumes in binary64, up to relative errors of a few units in the last place. -/
theorem C124_measure {c : E 2} {d p v : E 3} {r : ℝ} (hc : ModerateV c) (hd : ModerateV d) (hv : ModerateV v) (hr : Moderate r)
    {C : Circle XReal} {S : Sphere XReal} {Y : Cylinder XReal} (hC : @Circle.new XReal ieee (xarr c) (fin r) = .ok C)
    (hS : @Sphere.new XReal ieee (xarr d) (fin r) = .ok S) (hY : @Cylinder.new XReal ieee (xarr p) (xarr v) (fin r) = .ok Y) :
    (∃ z, @Circle.circumference XReal ieee C = fin z ∧ ApproxRel u53 3 z (2 * Real.pi * r)) ∧
    (∃ z, @Circle.area XReal ieee C = fin z ∧ ApproxRel u53 3 z (Real.pi * r ^ 2)) ∧
    (∃ z, @Sphere.surfaceArea XReal ieee S = fin z ∧ ApproxRel u53 4 z (4 * Real.pi * r ^ 2)) ∧
    (∃ z, @Sphere.volume XReal ieee S = fin z ∧ ApproxRel u53 6 z (4 / 3 * Real.pi * r ^ 3)) ∧
    (∃ z, @Cylinder.length XReal ieee Y = fin z ∧ ApproxRel u53 3 z ‖v‖) ∧
    (∃ z, @Cylinder.lateralSurfaceArea XReal ieee Y = fin z ∧ ApproxRel u53 7 z (2 * Real.pi * r * ‖v‖)) ∧
    (∃ z, @Cylinder.surfaceArea XReal ieee Y = fin z ∧ ApproxRel u53 8 z (2 * Real.pi * r * ‖v‖ + 2 * Real.pi * r ^ 2)) ∧
    ∃ z, @Cylinder.volume XReal ieee Y = fin z ∧ ApproxRel u53 7 z (Real.pi * r ^ 2 * ‖v‖) := by
  obtain ⟨hr0, rfl⟩ := circle_of_new_ie hc hr hC
  obtain ⟨-, rfl⟩ := sphere_of_new_ie hd hr hS
  obtain ⟨hv0, -, rfl⟩ := cylinder_of_new_ie hv hY
  obtain ⟨h1, h2, h3, h4, h5, h6, h7⟩ := C96_solids (c := xarr c) (c' := arr c) (p := p) hr hv
  obtain ⟨-, -, h3, h4, -⟩ := C96_solids (c := xarr d) (c' := arr d) (p := p) hr hv
  have h8 := (C96_cylinder (p := d) (r := r) hd hv hd hv0).2
  obtain ⟨k1, k2⟩ := C92_circle std53 (circle_rn c hr0)
  obtain ⟨k3, k4⟩ := C92_sphere std53 (sphere_rn d hr0)
  obtain ⟨k8, k5, k6, k7⟩ := C92_cylinder std53 (u53_le (by norm_num)) (cylinder_rn p hv0 hr0)
  exact ⟨⟨_, h1, k1⟩, ⟨_, h2, k2⟩, ⟨_, h3, k3⟩, ⟨_, h4, k4⟩, ⟨_, h8, k8⟩, ⟨_, h5, k5⟩, ⟨_, h6, k6⟩, _, h7, k7⟩

/-- C124: `line.side_point(x)` and `v.side_vector(x)` in binary64 never report the wrong side of a 2D line. -/
theorem C124_side {v x : E 2} (hv : ModerateV v) (hx : ModerateV x) :
    ∃ s, @Vec.sideVector XReal ieee (xarr v) (xarr x) = .ok s ∧ (s = 1 ∨ s = 0 ∨ s = -1) ∧
      (s = 1 → 0 < v 1 * x 0 - v 0 * x 1) ∧ (s = -1 → v 1 * x 0 - v 0 * x 1 < 0) ∧
      (s = 0 → |v 1 * x 0 - v 0 * x 1| ≤ u53 * (|v 1 * x 0| + |v 0 * x 1|)) := by
  have h := (C96_side hv hv hx).1
  obtain ⟨s, k, k1, k2, k3⟩ := C75_side_never_wrong (fl := leftToRight (roundNearest 53)) (roundNearest_mono (by norm_num : 1 ≤ 53))
    roundNearest_zero v x
  refine ⟨s, by rw [h, k], k3, k1, k2, ?_⟩
  rintro rfl
  exact C75_side_zero_only_if_close std53 v x k

/-- C124: `LineSegment(a, b)` in binary64: raises for end points that agree up to `9e-10` in every coordinate, and accepts end points
that differ by more than `11e-10` in every coordinate; `segment.contains_point(x)` accepts all points of the segment and no point
further than `13e-6` times its length from it. -/
theorem C124_segment [NeZero n] (hn : n ≤ 1000) {a b x : E n} (ha : ModerateV a) (hb : ModerateV b) (hx : ModerateV x) :
    ((∀ i, |a i - b i| ≤ (9 / 10 ^ 10 : ℝ) * max |a i| |b i|) →
      @LineSegment.new XReal ieee (xarr a) (xarr b) = .error (.valueError "The endpoints must not be equal.")) ∧
    (∀ i, (11 / 10 ^ 10 : ℝ) * max |a i| |b i| < |a i - b i| →
      @LineSegment.new XReal ieee (xarr a) (xarr b) = .ok ⟨xarr a, xarr b⟩) ∧
    ∀ S, @LineSegment.new XReal ieee (xarr a) (xarr b) = .ok S →
      ∃ w, @LineSegment.containsPoint XReal ieee (@Tol.default XReal ieee) S (xarr x) = .ok w ∧
        (x ∈ segment ℝ a b → w = true) ∧ (w = true → ∃ y ∈ segment ℝ a b, dist x y ≤ 13 / 1000000 * dist a b) := by
  obtain ⟨h1, h2⟩ := C122_segment (hn.trans (by norm_num)) ha hb hx
  obtain ⟨k1, k2⟩ := C81_constructor std53 (u53_le (by norm_num)) a b
  refine ⟨fun h => by rw [h1, k1 h]; rfl, fun i h => by rw [h1, k2 i h]; rfl, fun S hS => ?_⟩
  rw [h1] at hS
  cases hk : @LineSegment.new ℝ rn (arr a) (arr b) with
  | error e => rw [hk] at hS; cases hS
  | ok T =>
    have hT : T = ⟨arr a, arr b⟩ := by
      simp only [LineSegment.new, new1D_rd, ok_bind, bind_ok_iff] at hk
      obtain ⟨c, -, hk⟩ := hk
      split_ifs at hk
      exact (Except.ok.inj hk).symm
    obtain ⟨w, l, l'⟩ := C81_contains_point std53 (u53_dim hn).2 hk x
    obtain ⟨r, t1, t2, t3⟩ := moderate_tol
    subst hT
    rw [hk] at hS
    obtain rfl : (⟨xarr a, xarr b⟩ : LineSegment XReal) = S := Except.ok.inj hS
    rw [t1] at l
    exact ⟨w, by rw [t2, h2 r 0 t3, l], l'⟩

/-- C124: `line.is_close(other)` in binary64. -/
theorem C124_line_is_close [NeZero n] (hn : n ≤ 1000) {p d q e : E n} (hp : ModerateV p) (hd : ModerateV d) (hq : ModerateV q) (he : ModerateV e)
    {L M : Line XReal} (hL : @Line.new XReal ieee (xarr p) (xarr d) = .ok L) (hM : @Line.new XReal ieee (xarr q) (xarr e) = .ok M)
    {t s : ℝ} (ht : Moderate t) (ht0 : 0 ≤ t) (ht1 : t ≤ 1 / 4) (hs : 0 ≤ s) (hd' : s < (1 - u53) ^ (n + 2) * ‖d‖ ^ 2)
    (he' : s < (1 - u53) ^ (n + 2) * ‖e‖ ^ 2) :
    ∃ b, @Line.isClose XReal ieee ⟨fin t, fin s⟩ L (.line M) = .ok b ∧
      (dist q (foot p d q) + u53 * (3 * ‖p‖ + (6 * n + 21) * dist q p) ≤ s → 1 - |cosE d e| + 6 / 10000000000 ≤ max t s → b = true) ∧
      (b = true → dist q (foot p d q) ≤ s + u53 * (3 * ‖p‖ + (6 * n + 21) * dist q p) ∧ 1 - |cosE d e| ≤ max t s + 6 / 10000000000) := by
  have hn' : n ≤ 2 ^ 53 := hn.trans (by norm_num)
  obtain ⟨hd0, rfl⟩ := line_of_new_ie hn' hd hL
  obtain ⟨he0, rfl⟩ := line_of_new_ie hn' he hM
  obtain ⟨b, k, k'⟩ := C121_line_is_close std53 (u53_dim hn).1 (line_rn p hd0) (line_rn q he0) ht0 ht1 hs hd' he'
  exact ⟨b, by rw [(C122_line hn' hp hd hq he hd0).2.2 t s ht, k], k'⟩

/-- C124: `plane.is_close(other)` in binary64. -/
theorem C124_plane_is_close [NeZero n] (hn : n ≤ 1000) {p d q e : E n} (hp : ModerateV p) (hd : ModerateV d) (hq : ModerateV q) (he : ModerateV e)
    {P Q : Plane XReal} (hP : @Plane.new XReal ieee (xarr p) (xarr d) = .ok P) (hQ : @Plane.new XReal ieee (xarr q) (xarr e) = .ok Q)
    {t s : ℝ} (ht : Moderate t) (ht0 : 0 ≤ t) (ht1 : t ≤ 1 / 4) (hs : 0 ≤ s) (hd' : s < (1 - u53) ^ (n + 2) * ‖d‖ ^ 2)
    (he' : s < (1 - u53) ^ (n + 2) * ‖e‖ ^ 2) :
    ∃ b, @Plane.isClose XReal ieee ⟨fin t, fin s⟩ P (.plane Q) = .ok b ∧
      (|signedDist p d q| + u53 * ((3 * n + 11) * dist q p) ≤ s → 1 - |cosE d e| + 6 / 10000000000 ≤ max t s → b = true) ∧
      (b = true → |signedDist p d q| ≤ s + u53 * ((3 * n + 11) * dist q p) ∧ 1 - |cosE d e| ≤ max t s + 6 / 10000000000) := by
  have hn' : n ≤ 2 ^ 53 := hn.trans (by norm_num)
  obtain ⟨hd0, rfl⟩ := plane_of_new_ie hn' hd hP
  obtain ⟨he0, rfl⟩ := plane_of_new_ie hn' he hQ
  obtain ⟨b, k, k'⟩ := C121_plane_is_close std53 (u53_dim hn).1 (plane_rn p hd0) (plane_rn q he0) ht0 ht1 hs hd' he'
  exact ⟨b, by rw [((C122_plane hn' hp hd hq he hd0).2 t s ht).1, k], k'⟩

/-- C124: the batch methods of lines in binary64. -/
theorem C124_line_batch [NeZero n] (hn : n ≤ 2 ^ 53) {p v : E n} {P : List (E n)} (hp : ModerateV p) (hv : ModerateV v) {L : Line XReal}
    (hL : @Line.new XReal ieee (xarr p) (xarr v) = .ok L) (hP : P ≠ []) (hm : ∀ x ∈ P, ModerateV x) :
    (∃ Q : List (E n), @Line.projectPoints XReal ieee L (xrows P) = .ok (xrows Q) ∧ List.Forall₂ (fun x q => dist q (foot p v x) ≤
      ((1 - u53)⁻¹ - 1) * ‖p‖ + (((1 - u53) ^ (2 * n + 9))⁻¹ - 1) * dist x p) P Q) ∧
    (∃ D : List ℝ, @Line.distancePoints XReal ieee L (xrows P) = .ok (D.map fin) ∧
      List.Forall₂ (fun x d => ∃ e, ApproxRel u53 ((n + 5) / 2) d e ∧ |e - dist x (foot p v x)| ≤
        ((1 - u53)⁻¹ - 1) * ‖p‖ + (((1 - u53) ^ (2 * n + 9))⁻¹ - 1) * dist x p) P D) ∧
    ∃ D : List ℝ, @Line.transformPoints XReal ieee L (xrows P) = .ok (D.map fin) ∧
      List.Forall₂ (fun x s => |s - inner ℝ (x - p) v / ‖v‖| ≤ (((1 - u53) ^ ((3 * n + 9) / 2 : ℝ))⁻¹ - 1) * dist x p) P D := by
  obtain ⟨hv0, rfl⟩ := line_of_new_ie hn hv hL
  obtain ⟨h1, h2, h3⟩ := C122_line_batch hn hp hv hv0 hP hm
  obtain ⟨Q, k1, k1'⟩ := C113_line_project_points std53 p v hv0 hP
  obtain ⟨D, k2, k2'⟩ := C113_line_distance_points std53 p v hv0 hP
  obtain ⟨F, k3, k3'⟩ := C115_transform_points std53 p v hv0 hP
  exact ⟨⟨Q, by rw [h1, k1, asRows_ok], k1'⟩, ⟨D, by rw [h2, k2]; rfl, k2'⟩, F, by rw [h3, k3]; rfl, k3'⟩

/-- C124: the batch methods of planes in binary64. -/
theorem C124_plane_batch [NeZero n] (hn : n ≤ 2 ^ 53) {p v : E n} {P : List (E n)} (hp : ModerateV p) (hv : ModerateV v) {L : Plane XReal}
    (hL : @Plane.new XReal ieee (xarr p) (xarr v) = .ok L) (hP : P ≠ []) (hl : P.length ≤ 2 ^ 53) (hm : ∀ x ∈ P, ModerateV x) :
    (∃ Q : List (E n), @Plane.projectPoints XReal ieee L (xrows P) = .ok (xrows Q) ∧
      List.Forall₂ (fun x q => dist q (x - (inner ℝ (x - p) v / ‖v‖ ^ 2) • v) ≤
        ((1 - u53)⁻¹ - 1) * ‖x‖ + (((1 - u53) ^ (2 * n + 9))⁻¹ - 1) * dist x p) P Q) ∧
    (∃ D : List ℝ, @Plane.distancePointsSigned XReal ieee L (xrows P) = .ok (D.map fin) ∧
      @Plane.distancePoints XReal ieee L (xrows P) = .ok (D.map fun d => fin |d|) ∧
      List.Forall₂ (fun x s => |s - signedDist p v x| ≤ (((1 - u53) ^ ((3 * n + 9) / 2 : ℝ))⁻¹ - 1) * dist x p) P D) ∧
    ∃ s, @Plane.sumSquares XReal ieee L (xrows P) = .ok (fin s) ∧ |s - (P.map fun x => signedDist p v x ^ 2).sum| ≤
      (((1 - u53) ^ (3 * n + 10 + P.length))⁻¹ - 1) * (P.map fun x => dist x p ^ 2).sum := by
  obtain ⟨hv0, rfl⟩ := plane_of_new_ie hn hv hL
  obtain ⟨h1, h2, h3⟩ := C122_plane_batch hn hp hv hv0 hP hm
  have h4 := C122_plane_sum_squares hn hp hv hv0 hP hl hm
  obtain ⟨Q, k1, k1'⟩ := C113_plane_project_points std53 p v hv0 hP
  obtain ⟨D, k2, k3, k2'⟩ := C113_plane_distance_points std53 p v hv0 hP
  obtain ⟨s, k4, k4'⟩ := C113_plane_sum_squares std53 p v hv0 hP
  refine ⟨⟨Q, by rw [h1, k1, asRows_ok], k1'⟩, ⟨D, by rw [h2, k2]; rfl, ?_, k2'⟩, s, by rw [h4, k4, asFloat_ok], k4'⟩
  rw [h3, k3]
  exact congrArg Except.ok (List.map_map ..)

/-- C124: `plane.project_vector` and `plane.project_line` in binary64. -/
theorem C124_plane_project [NeZero n] (hn : n ≤ 1000) {p m a d : E n} (hp : ModerateV p) (hm : ModerateV m) (ha : ModerateV a) (hd : ModerateV d)
    {P : Plane XReal} {L : Line XReal} (hP : @Plane.new XReal ieee (xarr p) (xarr m) = .ok P) (hL : @Line.new XReal ieee (xarr a) (xarr d) = .ok L) :
    (∃ q : E n, @Plane.projectVector XReal ieee P (xarr d) = .ok (xarr q) ∧
      ‖q - (d - (inner ℝ d m / ‖m‖ ^ 2) • m)‖ ≤ (((1 - u53) ^ (2 * n + 9))⁻¹ - 1) * (‖p‖ + ‖d‖)) ∧
    (|cosE m d| < 1 - 15 / 10000000000 → (((1 - u53) ^ (2 * n + 9))⁻¹ - 1) * (‖p‖ + ‖d‖) < ‖d - (inner ℝ d m / ‖m‖ ^ 2) • m‖ →
      ∃ q w : E n, @Plane.projectLine XReal ieee (@Tol.default XReal ieee) P L = .ok ⟨xarr q, xarr w⟩ ∧ w ≠ 0 ∧
        dist q (a - (inner ℝ (a - p) m / ‖m‖ ^ 2) • m) ≤
          ((1 - u53)⁻¹ - 1) * ‖a‖ + (((1 - u53) ^ (2 * n + 6))⁻¹ - 1) * dist a p ∧
        ‖w - (d - (inner ℝ d m / ‖m‖ ^ 2) • m)‖ ≤ (((1 - u53) ^ (2 * n + 9))⁻¹ - 1) * (‖p‖ + ‖d‖)) := by
  have hn' : n ≤ 2 ^ 53 := hn.trans (by norm_num)
  obtain ⟨hm0, rfl⟩ := plane_of_new_ie hn' hm hP
  obtain ⟨hd0, rfl⟩ := line_of_new_ie hn' hd hL
  obtain ⟨h1, h2⟩ := C122_plane hn' hp hm ha hd hm0
  constructor
  · obtain ⟨q, k, k'⟩ := C113_plane_project_vector std53 p m d hm0
    exact ⟨q, by rw [h1, k, asFloats_ok], k'⟩
  · intro hc hlong
    obtain ⟨q, w, k, k'⟩ := C113_plane_project_line std53 (u53_dim hn).1 p m a d hm0 hd0 hc hlong
    obtain ⟨r, t1, t2, t3⟩ := moderate_tol
    rw [t1] at k
    exact ⟨q, w, by rw [t2, (h2 r 0 t3).2, k, asLine_ok], k'⟩

/-- C124: perimeter, centroid and altitudes of a triangle in binary64. -/
theorem C124_triangle [NeZero n] (hn : n ≤ 2 ^ 53) {ext : NumpyExt XReal} {a b c : E n} (ha : ModerateV a) (hb : ModerateV b)
    (hc : ModerateV c) {T : Triangle XReal} (hT : @Triangle.new XReal ieee ext (xarr a) (xarr b) (xarr c) = .ok T)
    (hab : a ≠ b) (hbc : b ≠ c) (hca : c ≠ a) :
    (∃ s, @Triangle.perimeter XReal ieee T = .ok (fin s) ∧ ApproxRel u53 ((n + 11) / 2) s (dist a b + dist b c + dist c a)) ∧
    (∃ m : E n, @Triangle.centroid XReal ieee T = .ok (xarr m) ∧
      ∀ j, |m j - (a j + b j + c j) / 3| ≤ (((1 - u53) ^ 4)⁻¹ - 1) * ((|a j| + |b j| + |c j|) / 3)) ∧
    ∀ v p q r, (v = "A" ∧ (p, q, r) = (a, b, c)) ∨ (v = "B" ∧ (p, q, r) = (b, c, a)) ∨ (v = "C" ∧ (p, q, r) = (c, a, b)) →
      ((1 - u53)⁻¹ - 1) * ‖q‖ + (((1 - u53) ^ (2 * n + 10))⁻¹ - 1) * dist p q < dist p (foot q (r - q) p) →
      ∃ w : E n, @Triangle.altitude XReal ieee T v = .ok ⟨xarr p, xarr w⟩ ∧ w ≠ 0 ∧
        ‖w - (foot q (r - q) p - p)‖ ≤ (((1 - u53) ^ 2)⁻¹ - 1) * ‖q‖ + (((1 - u53) ^ (2 * n + 11))⁻¹ - 1) * dist p q := by
  obtain rfl := triangle_ie hT
  obtain ⟨ext', hT'⟩ := triangle_rn a b c
  obtain ⟨-, -, h1, -, h2, -⟩ := C122_triangle hn ha hb hc
  refine ⟨?_, ?_, ?_⟩
  · obtain ⟨s, k, k'⟩ := C92_perimeter std53 (u53_le (by norm_num)) hT' hab hbc hca
    exact ⟨s, by rw [h1, k, asFloat_ok], k'⟩
  · obtain ⟨m, k, k'⟩ := C115_centroid std53 hT'
    exact ⟨m, by rw [C122_triangle_centroid ha hb hc, k, asFloats_ok], k'⟩
  · obtain ⟨kA, kB, kC⟩ := C115_altitude std53 (u53_le (by norm_num)) hT' hab hbc hca
    rintro v p q r (⟨rfl, h⟩ | ⟨rfl, h⟩ | ⟨rfl, h⟩) hlong <;> simp only [Prod.mk.injEq] at h <;> obtain ⟨rfl, rfl, rfl⟩ := h
    · obtain ⟨w, k, k'⟩ := kA hlong
      exact ⟨w, by rw [h2, k, asLine_ok], k'⟩
    · obtain ⟨w, k, k'⟩ := kB hlong
      exact ⟨w, by rw [h2, k, asLine_ok], k'⟩
    · obtain ⟨w, k, k'⟩ := kC hlong
      exact ⟨w, by rw [h2, k, asLine_ok], k'⟩

/-- C124: the normal of a triangle, and `Plane.from_points`, in binary64, in at most three dimensions. -/
theorem C124_normal [NeZero n] (hn : n ≤ 3) {ext : NumpyExt XReal} {a b c : E n} (ha : ModerateV a) (hb : ModerateV b) (hc : ModerateV c) :
    (∀ T, @Triangle.new XReal ieee ext (xarr a) (xarr b) (xarr c) = .ok T → ∃ N : E 3, @Triangle.normal XReal ieee T = .ok (xarr N) ∧
      dist N (crossE (pad3 (b - a)) (pad3 (c - a))) ≤ √2 * (((1 - u53) ^ 4)⁻¹ - 1) * (dist a b * dist a c)) ∧
    ∀ (t : Option ℝ) P, @Plane.fromPoints XReal ieee ext (t.map fin) (xarr a) (xarr b) (xarr c) = .ok P →
      ∃ N : E 3, P = ⟨xarr (pad3 a), xarr N⟩ ∧
        ‖N - crossE (pad3 (b - a)) (pad3 (c - a))‖ ≤ 6 * u53 * (dist a b * dist a c) ∧
        (12 * u53 < √(1 - cosE (b - a) (c - a) ^ 2) → a ≠ b → a ≠ c →
          (∀ s r : ℝ, |signedDist (pad3 a) N (pad3 (a + s • (b - a) + r • (c - a)))| ≤
            12 * u53 / √(1 - cosE (b - a) (c - a) ^ 2) * ‖s • (b - a) + r • (c - a)‖) ∧
          |signedDist (pad3 a) N (pad3 b)| ≤ 12 * u53 / √(1 - cosE (b - a) (c - a) ^ 2) * dist a b ∧
          |signedDist (pad3 a) N (pad3 c)| ≤ 12 * u53 / √(1 - cosE (b - a) (c - a) ^ 2) * dist a c) := by
  constructor
  · intro T hT
    obtain rfl := triangle_ie hT
    obtain ⟨ext', hT'⟩ := triangle_rn a b c
    obtain ⟨N, k, k'⟩ := C115_normal hn std53 hT'
    exact ⟨N, by rw [(C122_triangle_normal hn ha hb hc).1, k, asFloats_ok], k'⟩
  · intro t P hP
    rw [C122_plane_from_points hn ext ha hb hc t] at hP
    cases hk : @Plane.fromPoints ℝ rn (viaFloats ext) t (arr a) (arr b) (arr c) with
    | error e => rw [hk] at hP; cases hP
    | ok Q =>
      obtain ⟨N, rfl, k⟩ := C115_from_points hn std53 (u53_le (by norm_num)) t hk
      rw [hk, asPlane_ok] at hP
      exact ⟨N, (Except.ok.inj hP).symm, k⟩

/-! ### The hypotheses can be met -/

/-- A line, a plane, a sphere, a cylinder and a tolerance with moderate numbers, as the theorems above assume. -/
example : ∃ (p v : E 3) (r t : ℝ) (L : Line XReal) (P : Plane XReal) (S : Sphere XReal) (Y : Cylinder XReal),
    ModerateV p ∧ ModerateV v ∧ Moderate r ∧ Moderate t ∧ 0 ≤ t ∧ t ≤ 1 / 4 ∧
    @Line.new XReal ieee (xarr p) (xarr v) = .ok L ∧ @Plane.new XReal ieee (xarr p) (xarr v) = .ok P ∧
    @Sphere.new XReal ieee (xarr p) (fin r) = .ok S ∧ @Cylinder.new XReal ieee (xarr p) (xarr v) (fin r) = .ok Y ∧
    (1 / 1000 : ℝ) < (1 - u53) ^ (3 + 2) * ‖v‖ ^ 2 := by
  classical
  have hp : ModerateV (vec3 ((1 : ℤ) : ℝ) ((2 : ℤ) : ℝ) ((3 : ℤ) : ℝ)) :=
    moderate_vec3 (moderate_int (by norm_num)) (moderate_int (by norm_num)) (moderate_int (by norm_num))
  have hv : ModerateV (vec3 ((1 : ℤ) : ℝ) 0 0) := moderate_vec3 (moderate_int (by norm_num)) moderate_zero moderate_zero
  have hr : Moderate ((4 : ℤ) : ℝ) := moderate_int (by norm_num)
  have hc := (C96_constructors (by norm_num) (vec3 ((1 : ℤ) : ℝ) ((2 : ℤ) : ℝ) ((3 : ℤ) : ℝ)) hv).1 basis3_ne
  refine ⟨_, _, _, 0, _, _, _, ⟨xarr (vec3 ((1 : ℤ) : ℝ) ((2 : ℤ) : ℝ) ((3 : ℤ) : ℝ)), xarr (vec3 ((1 : ℤ) : ℝ) 0 0), fin ((4 : ℤ) : ℝ)⟩, hp, hv, hr, moderate_zero, le_rfl, by norm_num, hc.1, hc.2, (C96_sphere hp hr hp).1 (by norm_num), ?_, ?_⟩
  · have hz := isZero_default_ie (by norm_num) (hv.rv.mono (by norm_num) (by norm_num : (50 : ℤ) ≤ 51))
    have hl : @PyNum.lt XReal ieee (@zero XReal ieee) (fin ((4 : ℤ) : ℝ)) = true := by
      rw [ieee_zero, ieee_lt, lt_rd, zero_rd]
      simp
    simp only [Cylinder.new, ieee_new1D, ok_bind, length_xarr, ne_eq, not_true_eq_false, if_false, hz, basis3_ne, decide_false,
      Bool.false_eq_true, hl, Bool.not_true, pure_ok]
  · rw [EuclideanSpace.norm_sq_eq, Fin.sum_univ_three]
    simp only [vec3, PiLp.toLp_apply, Matrix.cons_val]
    norm_num

/-- The point `(2, 0)` on the segment from `(1, 0)` to `(4, 0)`: the points differ in the first coordinate. -/
example : ∃ (a b x : E 2), ModerateV a ∧ ModerateV b ∧ ModerateV x ∧ (11 / 10 ^ 10 : ℝ) * max |a 0| |b 0| < |a 0 - b 0| ∧ x ∈ segment ℝ a b := by
  refine ⟨vec2 ((1 : ℤ) : ℝ) 0, vec2 ((4 : ℤ) : ℝ) 0, vec2 ((2 : ℤ) : ℝ) 0, moderate_vec2 (moderate_int (by norm_num)) moderate_zero,
    moderate_vec2 (moderate_int (by norm_num)) moderate_zero, moderate_vec2 (moderate_int (by norm_num)) moderate_zero, ?_,
    2 / 3, 1 / 3, by norm_num, by norm_num, by norm_num, ?_⟩
  · simp only [vec2, PiLp.toLp_apply, Matrix.cons_val]
    norm_num
  · ext i
    fin_cases i <;> simp [vec2] <;> norm_num

end SkSpatial
