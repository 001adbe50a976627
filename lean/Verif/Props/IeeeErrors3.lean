import Verif.Props.Ieee13
import Verif.Props.IeeeErrors2
import Verif.Props.Rounding22
/-!
# C125: accuracy of line–cylinder intersections in IEEE binary64

The error bounds of C111 and C112 hold for what the library returns when it computes with binary64 floats on everyday numbers.
-/

namespace SkSpatial
open XReal StdRounding

local notation "rn" => rounded (leftToRight (roundNearest 53))

/-- The unit roundoff of binary64, `2⁻⁵³`. -/
local notation "u53" => ((2 : ℝ) ^ (-((53 : ℕ) : ℤ)))

theorem everyday_int {k : ℤ} (hk : |k| ≤ 2 ^ 20) : Everyday k := by
  obtain ⟨h1, h2, -⟩ := moderate_int (k := k) (hk.trans (by norm_num))
  refine ⟨h1, ?_, ?_⟩
  · by_cases h : k = 0
    · left; exact_mod_cast h
    · right
      have : (1 : ℤ) ≤ |k| := Int.one_le_abs h
      have h2 : (1 : ℝ) ≤ |(k : ℝ)| := by exact_mod_cast this
      exact le_trans (by norm_num) h2
  · have : |(k : ℝ)| ≤ 2 ^ 20 := by exact_mod_cast hk
    exact this.trans (le_of_eq (by norm_num))

theorem everyday_zero : Everyday 0 := by simpa using everyday_int (k := 0) (by norm_num)

theorem everyday_vec3 {a b c : ℝ} (ha : Everyday a) (hb : Everyday b) (hc : Everyday c) : EverydayV (vec3 a b c) := by
  intro i; fin_cases i <;> assumption

/-- **C125** `cylinder.intersect_line(line)` (infinite cylinder) in binary64. `H` is the distance of the line from the axis and `s` the sine of
the angle between them. A line that clearly misses the cylinder is reported as missing it; for one that clearly hits it the two points are
within the stated distance of the exact ones; and any point returned is near the line and near the surface. -/
theorem C125_infinite_cylinder {p a q d : E 3} {r : ℝ} (hp : EverydayV p) (ha : EverydayV a) (hr : Everyday r) (hq : EverydayV q) (hd : EverydayV d)
    {C : Cylinder XReal} {L : Line XReal} (hC : @Cylinder.new XReal ieee (xarr p) (xarr a) (fin r) = .ok C)
    (hL : @Line.new XReal ieee (xarr q) (xarr d) = .ok L)
    {s H : ℝ} (hse : s = √(1 - cosE a d ^ 2)) (hs : 0 < s) (hus : 10 ^ 5 * u53 ≤ s) (hH : IsLeast (lineDistances p a q d) H)
    {nd : Option Int} (hnd : nd = none ∨ nd = some 0) :
    (r ^ 2 + 500 * (u53 / s) * (dist q p ^ 2 + r ^ 2) < H ^ 2 →
      @Cylinder.intersectLine XReal ieee C L nd true = .error (.valueError "The line does not intersect the cylinder.")) ∧
    (H ^ 2 + 500 * (u53 / s) * (dist q p ^ 2 + r ^ 2) < r ^ 2 →
      ∃ y y' x x' : E 3, @Cylinder.intersectLine XReal ieee C L nd true = .ok (xarr y, xarr y') ∧
        infCyl p a r ∩ lineSet q d = {x, x'} ∧ (∃ t : ℝ, 0 ≤ t ∧ x' = x + t • d) ∧
        dist y x ≤ u53 * (2 * ‖q‖ + 1100 * ((dist q p ^ 2 + r ^ 2) / (s ^ 2 * √(r ^ 2 - H ^ 2)))) ∧
        dist y' x' ≤ u53 * (2 * ‖q‖ + 1100 * ((dist q p ^ 2 + r ^ 2) / (s ^ 2 * √(r ^ 2 - H ^ 2))))) ∧
    (∀ res, @Cylinder.intersectLine XReal ieee C L nd true = .ok res → ∃ y y' : E 3, res = (xarr y, xarr y') ∧
      ∀ z, z = y ∨ z = y' → Metric.infDist z (lineSet q d) ≤ u53 * (2 * ‖q‖ + 30 * ((dist q p + r) / s)) ∧
        |Metric.infDist z (lineSet p a) - r| ≤ u53 * (2 * ‖q‖ + 1100 * ((dist q p ^ 2 + r ^ 2) / (s * r)))) := by
  obtain ⟨ha0, hr0, rfl⟩ := cylinder_of_new_ie ha.moderate hC
  obtain ⟨hd0, rfl⟩ := line_of_new_ie (by norm_num) hd.moderate hL
  rw [C125_cylinder_intersect_line hp ha hr hq hd hr0 ha0 hd0 hnd]
  obtain ⟨k1, k2, k3⟩ := C111_infinite_cylinder std53 (cylinder_rn p ha0 hr0) (line_rn q hd0) hse hs hus hH hnd
  refine ⟨fun h => by rw [k1 h, asPair_error], fun h => ?_, fun res h => ?_⟩
  · obtain ⟨y, y', x, x', e, h'⟩ := k2 h
    exact ⟨y, y', x, x', by rw [e, asPair_ok], h'⟩
  · cases e : @Cylinder.intersectLine ℝ rn ⟨arr p, arr a, r⟩ ⟨arr q, arr d⟩ nd true with
    | error err => rw [e, asPair_error] at h; cases h
    | ok w =>
      obtain ⟨y, y', rfl, h'⟩ := k3 w e
      rw [e, asPair_ok] at h
      exact ⟨y, y', (Except.ok.inj h).symm, h'⟩

/-- **C125** A line that meets both caps of a cylinder, away from the rims, in binary64. -/
theorem C125_through_caps {p a q d : E 3} {r : ℝ} (hp : EverydayV p) (ha : EverydayV a) (hr : Everyday r) (hq : EverydayV q) (hd : EverydayV d)
    {C : Cylinder XReal} {L : Line XReal} (hC : @Cylinder.new XReal ieee (xarr p) (xarr a) (fin r) = .ok C)
    (hL : @Line.new XReal ieee (xarr q) (xarr d) = .ok L)
    (hrim : ∀ x ∈ lineSet q d, ∀ z ∈ rims p a r, 200 * u53 * (‖p‖ + ‖q‖ + ‖a‖ + r) < dist x z)
    (hb : (lineSet q d ∩ capDisc p a r 0).Nonempty) (ht : (lineSet q d ∩ capDisc p a r 1).Nonempty)
    {nd : Option Int} (hnd : nd = none ∨ nd = some 0) :
    ∃ x x' y y' : E 3, x ∈ lineSet q d ∩ capDisc p a r 0 ∧ x' ∈ lineSet q d ∩ capDisc p a r 1 ∧ solidCyl p a r ∩ lineSet q d = segment ℝ x x' ∧
      @Cylinder.intersectLine XReal ieee C L nd false = .ok (xarr y, xarr y') ∧
      dist y x ≤ 40 * u53 * (‖p‖ + ‖q‖ + ‖a‖ + r) / |cosE a d| ∧ dist y' x' ≤ 40 * u53 * (‖p‖ + ‖q‖ + ‖a‖ + r) / |cosE a d| := by
  obtain ⟨ha0, hr0, rfl⟩ := cylinder_of_new_ie ha.moderate hC
  obtain ⟨hd0, rfl⟩ := line_of_new_ie (by norm_num) hd.moderate hL
  rw [C125_cylinder_intersect_line hp ha hr hq hd hr0 ha0 hd0 hnd]
  obtain ⟨x, x', y, y', h1, h2, h3, h4, h5⟩ := C112_through_caps std53 (by norm_num) (cylinder_rn p ha0 hr0) (line_rn q hd0) hrim hb ht nd
  exact ⟨x, x', y, y', h1, h2, h3, by rw [h4, asPair_ok], h5⟩

/-- **C125** `cylinder.intersect_line(line, infinite=False)` in binary64: if the line stays away from the rims and does not graze the lateral
surface, the method raises exactly when the line misses the cylinder, and otherwise returns the end points of the part of the line in the
cylinder, up to the stated error. -/
theorem C125_finite_cylinder {p a q d : E 3} {r : ℝ} (hp : EverydayV p) (ha : EverydayV a) (hr : Everyday r) (hq : EverydayV q) (hd : EverydayV d)
    {C : Cylinder XReal} {L : Line XReal} (hC : @Cylinder.new XReal ieee (xarr p) (xarr a) (fin r) = .ok C)
    (hL : @Line.new XReal ieee (xarr q) (xarr d) = .ok L)
    {s H Λ ε : ℝ} (hse : s = √(1 - cosE a d ^ 2)) (hs : 0 < s) (hus : 10 ^ 5 * u53 ≤ s) (hH : IsLeast (lineDistances p a q d) H)
    {nd : Option Int} (hnd : nd = none ∨ nd = some 0) (hgap : 500 * (u53 / s) * (dist q p ^ 2 + r ^ 2) < |r ^ 2 - H ^ 2|)
    (hΛ : Λ = ‖p‖ + ‖q‖ + ‖a‖ + r) (hε : ε = u53 * (2 * ‖q‖ + 1100 * ((dist q p ^ 2 + r ^ 2) / (s ^ 2 * √(r ^ 2 - H ^ 2)))))
    (hrim : ∀ x ∈ lineSet q d, ∀ z ∈ rims p a r, 200 * u53 * Λ + 2 * ε < dist x z) :
    (solidCyl p a r ∩ lineSet q d = ∅ → ∃ msg, @Cylinder.intersectLine XReal ieee C L nd false = .error (.valueError msg)) ∧
    ((solidCyl p a r ∩ lineSet q d).Nonempty → ∃ x x' y y' : E 3, solidCyl p a r ∩ lineSet q d = segment ℝ x x' ∧
      @Cylinder.intersectLine XReal ieee C L nd false = .ok (xarr y, xarr y') ∧
      (x ∈ infCyl p a r → dist y x ≤ ε) ∧ (x ∉ infCyl p a r → dist y x ≤ 40 * u53 * Λ / |cosE a d|) ∧
      (x' ∈ infCyl p a r → dist y' x' ≤ ε) ∧ (x' ∉ infCyl p a r → dist y' x' ≤ 40 * u53 * Λ / |cosE a d|)) := by
  obtain ⟨ha0, hr0, rfl⟩ := cylinder_of_new_ie ha.moderate hC
  obtain ⟨hd0, rfl⟩ := line_of_new_ie (by norm_num) hd.moderate hL
  rw [C125_cylinder_intersect_line hp ha hr hq hd hr0 ha0 hd0 hnd]
  obtain ⟨k1, k2⟩ := C112_finite_cylinder std53 (cylinder_rn p ha0 hr0) (line_rn q hd0) hse hs hus hH hnd hgap hΛ hε hrim
  refine ⟨fun h => ?_, fun h => ?_⟩
  · obtain ⟨msg, e⟩ := k1 h
    exact ⟨msg, by rw [e, asPair_error]⟩
  · obtain ⟨x, x', y, y', h1, h2, h3⟩ := k2 h
    exact ⟨x, x', y, y', h1, by rw [h2, asPair_ok], h3⟩

/-- **C125** Whatever the position of the line with respect to the rims: a point that `cylinder.intersect_line(line, infinite=False)` returns
in binary64 is near the line and near the cylinder. -/
theorem C125_returned {p a q d : E 3} {r : ℝ} (hp : EverydayV p) (ha : EverydayV a) (hr : Everyday r) (hq : EverydayV q) (hd : EverydayV d)
    {C : Cylinder XReal} {L : Line XReal} (hC : @Cylinder.new XReal ieee (xarr p) (xarr a) (fin r) = .ok C)
    (hL : @Line.new XReal ieee (xarr q) (xarr d) = .ok L)
    {s Λ : ℝ} (hse : s = √(1 - cosE a d ^ 2)) (hs : 0 < s) (hus : 10 ^ 5 * u53 ≤ s) (hΛ : Λ = ‖p‖ + ‖q‖ + ‖a‖ + r)
    {nd : Option Int} (hnd : nd = none ∨ nd = some 0) {res : List XReal × List XReal}
    (hres : @Cylinder.intersectLine XReal ieee C L nd false = .ok res) :
    ∃ y y' : E 3, res = (xarr y, xarr y') ∧ ∀ z, z = y ∨ z = y' →
      Metric.infDist z (lineSet q d) ≤ u53 * (8 * Λ + 30 * ((dist q p + r) / s)) ∧
      Metric.infDist z (solidCyl p a r) ≤ u53 * (50 * Λ + 2200 * ((dist q p ^ 2 + r ^ 2) / (s * r))) := by
  obtain ⟨ha0, hr0, rfl⟩ := cylinder_of_new_ie ha.moderate hC
  obtain ⟨hd0, rfl⟩ := line_of_new_ie (by norm_num) hd.moderate hL
  rw [C125_cylinder_intersect_line hp ha hr hq hd hr0 ha0 hd0 hnd] at hres
  cases e : @Cylinder.intersectLine ℝ rn ⟨arr p, arr a, r⟩ ⟨arr q, arr d⟩ nd false with
  | error err => rw [e, asPair_error] at hres; cases hres
  | ok w =>
    obtain ⟨y, y', rfl, h'⟩ := C112_returned std53 (cylinder_rn p ha0 hr0) (line_rn q hd0) hse hs hus hΛ hnd e
    rw [e, asPair_ok] at hres
    exact ⟨y, y', (Except.ok.inj hres).symm, h'⟩

/-! ### The hypotheses can be met -/

/-- The cylinder of radius 2 around the segment from the origin to `(0, 0, 3)` and the line through `(-5, 0, 1)` along the first axis: the
constructors accept them, and the line clearly hits the infinite cylinder. -/
example : ∃ (p a q d : E 3) (r s H : ℝ) (C : Cylinder XReal) (L : Line XReal), EverydayV p ∧ EverydayV a ∧ Everyday r ∧ EverydayV q ∧ EverydayV d ∧
    @Cylinder.new XReal ieee (xarr p) (xarr a) (fin r) = .ok C ∧ @Line.new XReal ieee (xarr q) (xarr d) = .ok L ∧
    s = √(1 - cosE a d ^ 2) ∧ 0 < s ∧ 10 ^ 5 * u53 ≤ s ∧ IsLeast (lineDistances p a q d) H ∧
    H ^ 2 + 500 * (u53 / s) * (dist q p ^ 2 + r ^ 2) < r ^ 2 := by
  have ha : EverydayV (vec3 0 0 ((3 : ℤ) : ℝ)) := everyday_vec3 everyday_zero everyday_zero (everyday_int (by norm_num))
  have hq : EverydayV (vec3 ((-5 : ℤ) : ℝ) 0 ((1 : ℤ) : ℝ)) := everyday_vec3 (everyday_int (by norm_num)) everyday_zero (everyday_int (by norm_num))
  have hd : EverydayV (vec3 ((1 : ℤ) : ℝ) 0 0) := everyday_vec3 (everyday_int (by norm_num)) everyday_zero everyday_zero
  have hr : Everyday ((2 : ℤ) : ℝ) := everyday_int (by norm_num)
  have hp : EverydayV (0 : E 3) := fun i => everyday_zero
  have ha0 : vec3 0 0 ((3 : ℤ) : ℝ) ≠ 0 := by
    intro h
    have := congrArg (fun x : E 3 => x 2) h
    simp [vec3] at this
  have hnew : @Cylinder.new XReal ieee (xarr (0 : E 3)) (xarr (vec3 0 0 ((3 : ℤ) : ℝ))) (fin ((2 : ℤ) : ℝ)) = .ok ⟨xarr (0 : E 3), xarr (vec3 0 0 ((3 : ℤ) : ℝ)), fin ((2 : ℤ) : ℝ)⟩ := by
    classical
    have hz := isZero_default_ie (by norm_num) (ha.moderate.rv.mono (by norm_num) (by norm_num : (50 : ℤ) ≤ 51))
    have hlt : @PyNum.lt ℝ rn 0 ((2 : ℤ) : ℝ) = true := by rw [lt_rd]; simp
    simp only [Cylinder.new, ieee_new1D, ok_bind, length_xarr, ne_eq, not_true_eq_false, if_false, hz, ha0, decide_false, Bool.false_eq_true,
      ieee_zero, ieee_lt, zero_rd, hlt, Bool.not_true, pure_ok]
  refine ⟨_, _, _, _, _, 1, 0, _, _, hp, ha, hr, hq, hd, hnew, ((C96_constructors (by norm_num) _ hd.moderate).1 basis3_ne).1, ?_, by norm_num,
    by norm_num, ⟨⟨vec3 0 0 1, ⟨1 / 3, ?_⟩, vec3 0 0 1, ⟨5, ?_⟩, by simp⟩, ?_⟩, ?_⟩
  · simp [cosE, inner3, vec3]
  · ext i; fin_cases i <;> simp [vec3]
  · ext i; fin_cases i <;> simp [vec3]
  · rintro r ⟨x, -, y, -, rfl⟩; exact dist_nonneg
  · rw [dist_zero_right, norm_sq3]
    simp only [vec3, PiLp.toLp_apply, Matrix.cons_val]
    norm_num

end SkSpatial
