import Verif.Props.Ieee3
/-! # C96 for measurements, and what C73-C95 give for binary64 -/

namespace SkSpatial
open XReal StdRounding

variable {n : ℕ}

local notation "rn" => rounded (leftToRight (roundNearest 53))

/-! ### Measurements -/

theorem setDimension3_ie [NeZero n] (hn : n ≤ 3) (x : E n) : @setDimension XReal ieee 3 (xarr x) = .ok (xarr (pad3 x)) := by
  have h := setDimension3_rd (fl := leftToRight (roundNearest 53)) hn x
  have hlt : ¬ ((3 : ℤ) < (n : ℤ)) := by omega
  simp only [setDimension, length_arr, hlt, if_false, zero_rd] at h
  have h2 : arr x ++ List.replicate ((3 : ℤ) - n).toNat (0 : ℝ) = arr (pad3 x) := by
    have := h
    unfold new1D at this
    split_ifs at this <;> simp_all
  simp only [setDimension, length_xarr, hlt, if_false, ieee_zero, zero_rd]
  have h3 : xarr x ++ List.replicate ((3 : ℤ) - n).toNat (fin 0) = xarr (pad3 x) := by
    simp only [xarr, ← h2, List.map_append, List.map_replicate]
  rw [h3]
  exact ieee_new1D _

theorem pad3_rv {m M : ℤ} {x : E n} (h : RV m M x) : RV m M (pad3 x) := by
  intro i
  simp only [padTo]
  split
  · exact h _
  · exact Rng.zero _ _

theorem xarr3 (x : E 3) : xarr x = [fin (x 0), fin (x 1), fin (x 2)] := by simp [xarr, arr3]

theorem cross_ie [NeZero n] (hn : n ≤ 3) {x y : E n} {m M : ℤ} (hx : RV m M x) (hy : RV m M y) (hm : m + m ≤ 1074)
    (hM : M + M ≤ 1022) :
    ∃ c : E 3, @Vec.cross ℝ rn (arr x) (arr y) = .ok (arr c) ∧ @Vec.cross XReal ieee (xarr x) (xarr y) = .ok (xarr c) ∧
      RV (m + m) (M + M + 1) c := by
  have h : ∀ i j k l, @PyNum.sub XReal ieee (@PyNum.mul XReal ieee (fin (pad3 x i)) (fin (pad3 y j)))
        (@PyNum.mul XReal ieee (fin (pad3 x k)) (fin (pad3 y l))) =
      fin (@PyNum.sub ℝ rn (@PyNum.mul ℝ rn (pad3 x i) (pad3 y j)) (@PyNum.mul ℝ rn (pad3 x k) (pad3 y l))) ∧
      Rng (m + m) (M + M + 1) (@PyNum.sub ℝ rn (@PyNum.mul ℝ rn (pad3 x i) (pad3 y j)) (@PyNum.mul ℝ rn (pad3 x k) (pad3 y l))) := by
    intro i j k l
    obtain ⟨a1, a2⟩ := ieee_mul (pad3_rv hx i) (pad3_rv hy j) hm (by omega)
    obtain ⟨b1, b2⟩ := ieee_mul (pad3_rv hx k) (pad3_rv hy l) hm (by omega)
    rw [a1, b1]
    exact ieee_sub a2 b2 hm hM
  refine ⟨vec3 (@PyNum.sub ℝ rn (@PyNum.mul ℝ rn (pad3 x 1) (pad3 y 2)) (@PyNum.mul ℝ rn (pad3 x 2) (pad3 y 1)))
    (@PyNum.sub ℝ rn (@PyNum.mul ℝ rn (pad3 x 2) (pad3 y 0)) (@PyNum.mul ℝ rn (pad3 x 0) (pad3 y 2)))
    (@PyNum.sub ℝ rn (@PyNum.mul ℝ rn (pad3 x 0) (pad3 y 1)) (@PyNum.mul ℝ rn (pad3 x 1) (pad3 y 0))), ?_, ?_, ?_⟩
  · simp only [Vec.cross, setDimension3_rd hn, new1D_rd, ok_bind, arr3, cross3]
    rw [← arr3, ← new1D_rd (fl := leftToRight (roundNearest 53))]
    simp [arr3, vec3]
  · simp only [Vec.cross, setDimension3_ie hn, ieee_new1D, ok_bind, xarr3, cross3, (h _ _ _ _).1]
    rw [← xarr3, ← ieee_new1D]
    simp [xarr3, vec3]
  · intro i
    fin_cases i <;> simp only [vec3] <;> exact (h _ _ _ _).2

theorem half_ie : @half XReal ieee = fin (@half ℝ rn) ∧ Rng 53 0 (@half ℝ rn) := by
  have k1 : Rng 0 0 (@PyNum.ofInt ℝ rn 1) := by rw [ofInt_rd]; simpa using Rng.one
  have k2 : Rng 0 1 (@PyNum.ofInt ℝ rn 2) := by rw [ofInt_rd]; simpa using Rng.int (k := 2) (M := 1) (by norm_num)
  obtain ⟨h1, h2⟩ := ieee_div k1 k2 (by rw [ofInt_rd]; norm_num) (by norm_num) (by norm_num)
  exact ⟨h1, h2.mono (by norm_num) (by norm_num)⟩

/-- C96: `v.cross(w)`, `area_triangle` and `volume_tetrahedron`, in dimension up to 3. -/
theorem C96_measure [NeZero n] (hn : n ≤ 3) {a b c d : E n} (ha : ModerateV a) (hb : ModerateV b) (hc : ModerateV c)
    (hd : ModerateV d) :
    @Vec.cross XReal ieee (xarr a) (xarr b) = asFloats (@Vec.cross ℝ rn (arr a) (arr b)) ∧
    @Measurement.areaTriangle XReal ieee (xarr a) (xarr b) (xarr c) =
      asFloat (@Measurement.areaTriangle ℝ rn (arr a) (arr b) (arr c)) ∧
    @Measurement.volumeTetrahedron XReal ieee (xarr a) (xarr b) (xarr c) (xarr d) =
      asFloat (@Measurement.volumeTetrahedron ℝ rn (arr a) (arr b) (arr c) (arr d)) := by
  obtain ⟨x, x1, x2, x3⟩ := fromPoints_ie ha hb
  obtain ⟨y, y1, y2, y3⟩ := fromPoints_ie ha hc
  obtain ⟨z, z1, z2, z3⟩ := fromPoints_ie ha hd
  refine ⟨?_, ?_, ?_⟩
  · obtain ⟨w, w1, w2, -⟩ := cross_ie hn ha.rv hb.rv (by norm_num) (by norm_num)
    rw [w1, w2, asFloats_ok]
  · obtain ⟨w, w1, w2, w3⟩ := cross_ie hn x3 y3 (by norm_num) (by norm_num)
    obtain ⟨n1, n2⟩ := ieee_norm (by norm_num) w3 (by norm_num) (by norm_num)
    obtain ⟨m1, -⟩ := ieee_mul half_ie.2 n2 (by norm_num) (by norm_num)
    simp only [Measurement.areaTriangle, x1, x2, y1, y2, ok_bind, w1, w2, Vec.norm, n1, half_ie.1, m1, pure_ok, asFloat_ok]
  · obtain ⟨w, w1, w2, w3⟩ := cross_ie hn y3 z3 (by norm_num) (by norm_num)
    obtain ⟨-, d1, d2⟩ := ieee_dot (by norm_num) (pad3_rv x3) w3 (by norm_num) (by norm_num)
    have k1 : Rng 0 0 (@PyNum.ofInt ℝ rn 1) := by rw [ofInt_rd]; simpa using Rng.one
    have k2 : Rng 0 3 (@PyNum.ofInt ℝ rn 6) := by rw [ofInt_rd]; simpa using Rng.int (k := 6) (M := 3) (by norm_num)
    obtain ⟨h1, h2⟩ := ieee_div k1 k2 (by rw [ofInt_rd]; norm_num) (by norm_num) (by norm_num)
    have o1 : @PyNum.ofInt XReal ieee 1 = fin (@PyNum.ofInt ℝ rn 1) := rfl
    have o2 : @PyNum.ofInt XReal ieee 6 = fin (@PyNum.ofInt ℝ rn 6) := rfl
    obtain ⟨m1, -⟩ := ieee_mul h2 d2.abs (by norm_num) (by norm_num)
    simp only [Measurement.volumeTetrahedron, x1, x2, y1, y2, z1, z2, ok_bind, w1, w2, setDimension3_rd hn, setDimension3_ie hn, dot_rd,
      d1, o1, o2, h1, ieee_abs, abs_rd, m1, pure_ok, asFloat_ok]

theorem pi_ie : @PyNum.pi XReal ieee = fin (@PyNum.pi ℝ rn) ∧ Rng 52 2 (@PyNum.pi ℝ rn) := by
  have h3 := Real.two_le_pi
  have h0 : (2 : ℝ) ^ (-(0 : ℤ)) ≤ |Real.pi| := by rw [abs_of_pos Real.pi_pos]; norm_num; linarith
  have h4 : |Real.pi| ≤ (2 : ℝ) ^ (2 : ℤ) := by
    rw [abs_of_pos Real.pi_pos]; exact Real.pi_le_four.trans (by norm_num)
  refine ⟨binary64_fin (.inr ?_) (h4.trans (zpow_le_zpow_right₀ (by norm_num) (by norm_num))), rn_mul2_of_le (s := 0) (.inr h0),
    rn_abs_le (rn_pow 2) h4⟩
  exact (zpow_le_zpow_right₀ (by norm_num) (by norm_num)).trans h0

theorem ofInt_ie (k : ℕ) {M : ℤ} (h : (k : ℝ) ≤ (2 : ℝ) ^ M) :
    @PyNum.ofInt XReal ieee (k : ℤ) = fin (@PyNum.ofInt ℝ rn (k : ℤ)) ∧ Rng 0 M (@PyNum.ofInt ℝ rn (k : ℤ)) := by
  refine ⟨rfl, ?_⟩
  rw [ofInt_rd]
  simpa using Rng.int h

/-- C96: circumference, areas and volumes of circles, spheres and cylinders. -/
theorem C96_solids {c : List XReal} {c' : List ℝ} {p v : E 3} {r : ℝ} (hr : Moderate r) (hv : ModerateV v) :
    @Circle.circumference XReal ieee ⟨c, fin r⟩ = fin (@Circle.circumference ℝ rn ⟨c', r⟩) ∧
    @Circle.area XReal ieee ⟨c, fin r⟩ = fin (@Circle.area ℝ rn ⟨c', r⟩) ∧
    @Sphere.surfaceArea XReal ieee ⟨c, fin r⟩ = fin (@Sphere.surfaceArea ℝ rn ⟨c', r⟩) ∧
    @Sphere.volume XReal ieee ⟨c, fin r⟩ = fin (@Sphere.volume ℝ rn ⟨c', r⟩) ∧
    @Cylinder.lateralSurfaceArea XReal ieee ⟨xarr p, xarr v, fin r⟩ = fin (@Cylinder.lateralSurfaceArea ℝ rn ⟨arr p, arr v, r⟩) ∧
    @Cylinder.surfaceArea XReal ieee ⟨xarr p, xarr v, fin r⟩ = fin (@Cylinder.surfaceArea ℝ rn ⟨arr p, arr v, r⟩) ∧
    @Cylinder.volume XReal ieee ⟨xarr p, xarr v, fin r⟩ = fin (@Cylinder.volume ℝ rn ⟨arr p, arr v, r⟩) := by
  obtain ⟨i2, j2⟩ := ofInt_ie 2 (M := 1) (by norm_num)
  obtain ⟨i3, j3⟩ := ofInt_ie 3 (M := 2) (by norm_num)
  obtain ⟨i4, j4⟩ := ofInt_ie 4 (M := 2) (by norm_num)
  have h3 : @PyNum.ofInt ℝ rn ((3 : ℕ) : ℤ) ≠ 0 := by rw [ofInt_rd]; norm_num
  push_cast at i2 i3 i4 j2 j3 j4 h3
  obtain ⟨p1, p2⟩ := pi_ie
  obtain ⟨a1, a2⟩ := ieee_mul j2 p2 (by norm_num) (by norm_num)
  obtain ⟨b1, b2⟩ := ieee_mul a2 hr.rng (by norm_num) (by norm_num)
  obtain ⟨s1, s2⟩ := ieee_mul hr.rng hr.rng (by norm_num) (by norm_num)
  obtain ⟨c1, c2⟩ := ieee_mul p2 s2 (by norm_num) (by norm_num)
  obtain ⟨d1, d2⟩ := ieee_mul j4 p2 (by norm_num) (by norm_num)
  obtain ⟨e1, e2⟩ := ieee_mul d2 s2 (by norm_num) (by norm_num)
  obtain ⟨f1, f2⟩ := ieee_div j4 j3 h3 (by norm_num) (by norm_num)
  obtain ⟨g1, g2⟩ := ieee_mul f2 p2 (by norm_num) (by norm_num)
  obtain ⟨k1, k2⟩ := ieee_mul s2 hr.rng (by norm_num) (by norm_num)
  obtain ⟨l1, l2⟩ := ieee_mul g2 k2 (by norm_num) (by norm_num)
  obtain ⟨n1, n2⟩ := ieee_norm (by norm_num) hv.rv (by norm_num) (by norm_num)
  obtain ⟨o1, o2⟩ := ieee_mul b2 n2 (by norm_num) (by norm_num)
  obtain ⟨q1, q2⟩ := ieee_mul a2 s2 (by norm_num) (by norm_num)
  obtain ⟨r1, r2⟩ := ieee_add (o2.mono (m' := 308) (M' := 130) (by norm_num) (by norm_num)) (q2.mono (by norm_num) (by norm_num))
    (by norm_num) (by norm_num)
  obtain ⟨t1, t2⟩ := ieee_mul c2 n2 (by norm_num) (by norm_num)
  have hlat : @Cylinder.lateralSurfaceArea XReal ieee ⟨xarr p, xarr v, fin r⟩ =
      fin (@Cylinder.lateralSurfaceArea ℝ rn ⟨arr p, arr v, r⟩) := by
    simp only [Cylinder.lateralSurfaceArea, Cylinder.length, Vec.norm, two, i2, p1, a1, b1, n1, o1]
  refine ⟨?_, ?_, ?_, ?_, hlat, ?_, ?_⟩
  · simp only [Circle.circumference, two, i2, p1, a1, b1]
  · simp only [Circle.area, sq, p1, s1, c1]
  · simp only [Sphere.surfaceArea, sq, i4, p1, d1, s1, e1]
  · simp only [Sphere.volume, cube, i4, i3, p1, f1, g1, s1, k1, l1]
  · simp only [Cylinder.surfaceArea, Cylinder.lateralSurfaceArea, Cylinder.length, Vec.norm, two, i2, p1, a1, b1, n1, o1, sq, s1, q1, r1]
  · simp only [Cylinder.volume, Cylinder.length, Vec.norm, sq, p1, s1, c1, n1, t1]

/-! ### What C73-C95 give for binary64 -/

/-- The unit roundoff of binary64. -/
local notation "u53" => ((2 : ℝ) ^ (-((53 : ℕ) : ℤ)))

/-- C96: rounding errors of IEEE binary64 runs, for moderate coordinates: norms, distances, projections onto lines, signed
distances to planes. -/
theorem C96_errors [NeZero n] (hn : n ≤ 2 ^ 53) {p v x : E n} (hp : ModerateV p) (hv : ModerateV v) (hx : ModerateV x) (hv0 : v ≠ 0) :
    (∃ d, @Vec.norm XReal ieee (xarr v) = fin d ∧ ApproxRel u53 ((n + 3) / 2) d ‖v‖) ∧
    (∃ d, @Pt.distancePoint XReal ieee (xarr p) (xarr x) = .ok (fin d) ∧ ApproxRel u53 ((n + 5) / 2) d (dist p x) ∧ (d = 0 ↔ p = x)) ∧
    (∃ q : E n, @Line.projectPoint XReal ieee ⟨xarr p, xarr v⟩ (xarr x) = .ok (xarr q) ∧
      dist q (foot p v x) ≤ ((1 - u53)⁻¹ - 1) * ‖p‖ + (((1 - u53) ^ (2 * n + 6))⁻¹ - 1) * dist x p) ∧
    ∃ s, @Plane.distancePointSigned XReal ieee ⟨xarr p, xarr v⟩ (xarr x) = .ok (fin s) ∧
      |s - signedDist p v x| ≤ (((1 - u53) ^ ((3 * n + 9) / 2 : ℝ))⁻¹ - 1) * dist x p := by
  obtain ⟨v1, -⟩ := C96_vector hn hv hx
  obtain ⟨-, -, -, d1, -⟩ := C96_vector hn hp hx
  obtain ⟨l1, -⟩ := C96_line hn hp hv hx hv0
  obtain ⟨s1, -⟩ := C96_plane hn hp hv hx hv0
  obtain ⟨d, hd, hd'⟩ := C73_distance_error std53 p x
  obtain ⟨q, hq, hq'⟩ := C78_line_project std53 p v x hv0
  obtain ⟨s, hs, -, hs', -⟩ := C78_plane_distance std53 p v x hv0
  refine ⟨⟨_, v1, C73_norm_error std53 v⟩, ⟨d, ?_, hd'⟩, ⟨q, ?_, hq'⟩, s, ?_, hs'⟩
  · rw [d1, hd, asFloat_ok]
  · rw [l1, hq, asFloats_ok]
  · rw [s1, hs, asFloat_ok]

/-- C96: `cylinder.is_point_within(point)` in IEEE binary64 errs only within a few ulps of the surface (see C93). -/
theorem C96_is_point_within {p v x : E 3} {r : ℝ} (hp : ModerateV p) (hv : ModerateV v) (hx : ModerateV x) (hv0 : v ≠ 0) (hr : 0 < r) :
    ∃ b, @Cylinder.isPointWithin XReal ieee ⟨xarr p, xarr v, fin r⟩ (xarr x) = .ok b ∧
      (Metric.closedBall x (u53 * (3 * ‖p‖ + 51 * dist x p + 6 * ‖v‖)) ⊆ solidCyl p v r → b = true) ∧
      (b = true → ∃ y ∈ solidCyl p v r, dist x y ≤ u53 * (3 * ‖p‖ + 51 * dist x p + 6 * ‖v‖)) := by
  classical
  have hC : @Cylinder.new ℝ rn (arr p) (arr v) r = .ok ⟨arr p, arr v, r⟩ := by
    simp [Cylinder.new, new1D_rd, C73_is_zero std53 (by norm_num), hv0, lt_rd, zero_rd, hr]
  obtain ⟨b, hb, h1⟩ := C93_is_point_within std53 (by norm_num) hC x
  exact ⟨b, by rw [(C96_cylinder hp hv hx hv0).1, hb], h1⟩

/-! ### Moderate numbers exist -/

theorem moderate_of_dyadic {j : ℕ} (hj : j ≤ 2 ^ 53) {e : ℤ} (he : -1022 ≤ e) {x : ℝ} (hx : |x| = j * (2 : ℝ) ^ e)
    (h1 : x = 0 ∨ (2 : ℝ) ^ (-50 : ℤ) ≤ |x|) (h2 : |x| ≤ (2 : ℝ) ^ (50 : ℤ)) : Moderate x := by
  refine ⟨?_, h1, h2⟩
  have hm : Mul2 1074 x := by
    have : Mul2 1074 |x| := by
      rw [hx]
      refine Mul2.mono (m := -e) ⟨j, ?_⟩ (by omega)
      rw [mul_assoc, ← zpow_add₀ (by norm_num)]
      simp
    rcases abs_choice x with h | h
    · rwa [h] at this
    · rw [h] at this; simpa using this.neg
  unfold IsFloat
  rw [binary64_fin (.inl hm) (h2.trans (zpow_le_zpow_right₀ (by norm_num) (by norm_num)))]
  have hr := rn_repr hj e
  rw [← hx] at hr
  congr 1
  rcases abs_choice x with h | h
  · rwa [h] at hr
  · rw [h, roundNearest_neg] at hr
    exact neg_inj.mp hr

theorem moderate_zero : Moderate 0 :=
  moderate_of_dyadic (j := 0) (e := 0) (by norm_num) (by norm_num) (by simp) (.inl rfl) (by simp)

/-- `0.1`, as stored in binary64. -/
theorem moderate_tenth : Moderate (3602879701896397 / 36028797018963968) := by
  refine moderate_of_dyadic (j := 3602879701896397) (e := -55) (by norm_num) (by norm_num) ?_ (.inr ?_) ?_ <;>
    rw [abs_of_pos (by norm_num)] <;> norm_num

theorem moderate_int {k : ℤ} (hk : |k| ≤ 2 ^ 50) : Moderate k := by
  refine moderate_of_dyadic (j := k.natAbs) (e := 0) (by have := Int.natCast_natAbs k; omega) (by norm_num) ?_ ?_ ?_
  · simp
  · by_cases h : k = 0
    · left; exact_mod_cast h
    · right
      have : (1 : ℤ) ≤ |k| := Int.one_le_abs h
      have h2 : (1 : ℝ) ≤ |(k : ℝ)| := by exact_mod_cast this
      exact le_trans (by norm_num) h2
  · have : |(k : ℝ)| ≤ 2 ^ 50 := by exact_mod_cast hk
    exact_mod_cast this

theorem moderate_vec2 {a b : ℝ} (ha : Moderate a) (hb : Moderate b) : ModerateV (vec2 a b) := by
  intro i; fin_cases i <;> assumption

theorem moderate_vec3 {a b c : ℝ} (ha : Moderate a) (hb : Moderate b) (hc : Moderate c) : ModerateV (vec3 a b c) := by
  intro i; fin_cases i <;> assumption

/-- C96: the hypotheses are met by `0`, `0.1`, and every integer up to `2⁵⁰`. -/
example : ∃ p v x : E 3, ModerateV p ∧ ModerateV v ∧ ModerateV x ∧ v ≠ 0 ∧ p ≠ x ∧
    @Plane.projectPoint XReal ieee ⟨xarr p, xarr v⟩ (xarr x) = asFloats (@Plane.projectPoint ℝ rn ⟨arr p, arr v⟩ (arr x)) := by
  have hm : ∀ k : ℤ, |k| ≤ 2 ^ 50 → Moderate (k : ℝ) := fun k => moderate_int
  have h1 : ModerateV (vec3 (3602879701896397 / 36028797018963968) ((-7 : ℤ) : ℝ) 0) :=
    moderate_vec3 moderate_tenth (moderate_int (by norm_num)) moderate_zero
  have h2 : ModerateV (vec3 ((1 : ℤ) : ℝ) ((2 : ℤ) : ℝ) ((1000000007 : ℤ) : ℝ)) :=
    moderate_vec3 (moderate_int (by norm_num)) (moderate_int (by norm_num)) (moderate_int (by norm_num))
  have h3 : ModerateV (vec3 0 0 ((5 : ℤ) : ℝ)) := moderate_vec3 moderate_zero moderate_zero (moderate_int (by norm_num))
  have hv : vec3 ((1 : ℤ) : ℝ) ((2 : ℤ) : ℝ) ((1000000007 : ℤ) : ℝ) ≠ 0 := by
    intro h
    have := congrArg (fun x : E 3 => x 0) h
    simp [vec3] at this
  refine ⟨_, _, _, h1, h2, h3, hv, ?_, (C96_plane (by norm_num) h1 h2 h3 hv).2.2.2.1⟩
  intro h
  have := congrArg (fun x : E 3 => x 2) h
  simp [vec3] at this

end SkSpatial
