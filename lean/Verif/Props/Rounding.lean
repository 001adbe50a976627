import Verif.Lemmas.Rounding
import Verif.Model.Plane
/-! # C73 - : what survives floating-point rounding

`@f ℝ (rounded fl) …` is the method `f` executed with every arithmetic operation rounded by `fl`.
-/

namespace SkSpatial
open StdRounding

variable {u : ℝ} {fl : Arith} {n : ℕ}

/-! ### Helpers -/

theorem isclose_rd (fl : Arith) (t s a b : ℝ) (ht : 0 ≤ t) (hs : 0 ≤ s) :
    @isclose ℝ (rounded fl) ⟨t, s⟩ a b = .ok (decide (a = b ∨ |fl (b - a)| ≤ |fl (t * b)| ∨
      |fl (b - a)| ≤ |fl (t * a)| ∨ |fl (b - a)| ≤ s)) := by
  classical
  simp only [isclose, toFloat_rd, lt_rd, zero_rd, eq_rd, isFinite_rd, abs_rd, sub_rd, mul_rd, le_rd]
  simp only [not_lt.mpr ht, not_lt.mpr hs, decide_false, Bool.or_self, Bool.not_true, Bool.false_and,
    Bool.false_eq_true, if_false]
  by_cases hab : a = b
  · simp [hab]
  · simp only [hab, decide_false, Bool.false_eq_true, if_false, false_or, Except.ok.injEq]
    simp only [Bool.decide_or, Bool.or_assoc]

theorem tolDefault_rd (fl : Arith) :
    @Tol.default ℝ (rounded fl) = ⟨fl (1 / 1000000000), 0⟩ := by
  simp [Tol.default, div_rd, ofInt_rd, zero_rd]

theorem fromPoints_rd [NeZero n] (fl : Arith) (x y : E n) :
    ∃ z : E n, @Vec.fromPoints ℝ (rounded fl) (arr x) (arr y) = .ok (arr z) ∧
      ∀ i, z i = fl (y i - x i) := by
  obtain ⟨z, hz, hi⟩ := vsub_rd (fl := fl) y x
  exact ⟨z, by simp [Vec.fromPoints, hz, new1D_rd], hi⟩

theorem dot_rd (fl : Arith) (x y : E n) :
    @dot ℝ (rounded fl) (arr x) (arr y) = .ok (@dotv ℝ (rounded fl) (arr x) (arr y)) := by
  simp [dot]

/-- `math.isclose(d, 0)` with the default tolerances is exact under rounding. -/
theorem isclose_zero_rd (h : StdRounding u fl) (hu : u ≤ 1 / 2) (d : ℝ) :
    @isclose ℝ (rounded fl) (@Tol.default ℝ (rounded fl)) d (@zero ℝ (rounded fl)) =
      .ok (decide (d = 0)) := by
  classical
  rw [tolDefault_rd, zero_rd]
  have h9 := h.err (1 / 1000000000)
  rw [abs_of_pos (by norm_num : (0:ℝ) < 1 / 1000000000), abs_le] at h9
  rw [isclose_rd _ _ _ _ _ (by nlinarith [h.nonneg]) le_rfl]
  simp only [Except.ok.injEq, decide_eq_decide, zero_sub, mul_zero, h.zero, abs_zero]
  constructor
  · rintro (h0 | h0 | h0 | h0)
    · exact h0
    · have : fl (-d) = 0 := abs_eq_zero.mp (le_antisymm h0 (abs_nonneg _))
      rw [h.eq_zero] at this; linarith
    · by_contra hd
      have hd' : 0 < |d| := abs_pos.mpr hd
      have e1 := h.err (-d)
      have e2 := h.err (fl (1 / 1000000000) * d)
      rw [abs_neg] at e1
      rw [abs_mul] at e2
      have e3 : |fl (1 / 1000000000)| ≤ 3 / 2000000000 := by
        rw [abs_le]; constructor <;> linarith
      have e4 : |(-d)| ≤ |fl (-d)| + u * |d| := by
        have := abs_sub_abs_le_abs_sub (-d) (fl (-d))
        rw [abs_sub_comm] at this
        linarith
      rw [abs_neg] at e4
      have e5 : |fl (fl (1 / 1000000000) * d)| ≤ |fl (1 / 1000000000)| * |d| + u * (|fl (1 / 1000000000)| * |d|) := by
        have := abs_sub_abs_le_abs_sub (fl (fl (1 / 1000000000) * d)) (fl (1 / 1000000000) * d)
        rw [abs_mul] at this
        linarith
      have e6 : |fl (1 / 1000000000)| * |d| ≤ 3 / 2000000000 * |d| := by gcongr
      have := h.nonneg
      nlinarith [mul_nonneg (abs_nonneg (fl (1 / 1000000000))) hd'.le, mul_le_mul_of_nonneg_right hu hd'.le]
    · have : fl (-d) = 0 := abs_eq_zero.mp (le_antisymm h0 (abs_nonneg _))
      rw [h.eq_zero] at this; linarith
  · exact Or.inl

/-! ## C73: norms and distances -/

/-- C73: `Vector.norm()` computed with rounding has relative error at most `(1-u)^(-(n+3)/2) - 1`. -/
theorem C73_norm_error (h : StdRounding u fl) (x : E n) :
    ApproxRel u ((n + 3) / 2) (@Vec.norm ℝ (rounded fl) (arr x)) ‖x‖ := by
  have := h.normv_rp le_rfl (CRP.refl (eps u) x)
  rw [zero_add] at this
  exact h.approxRel this (norm_nonneg x)

theorem distancePoint_rp [NeZero n] (h : StdRounding u fl) (x y : E n) :
    ∃ d, @Pt.distancePoint ℝ (rounded fl) (arr x) (arr y) = .ok d ∧
      RP (eps u) ((n + 5) / 2) d (dist x y) := by
  obtain ⟨z, hz, hi⟩ := fromPoints_rd fl x y
  refine ⟨_, by simp only [Pt.distancePoint, hz, ok_bind, pure_ok]; rfl, ?_⟩
  have hc : CRP (eps u) 1 z (y - x) := fun i => by rw [hi]; exact h.rp _
  have := h.normv_rp zero_le_one hc
  rw [show (1 : ℝ) + (n + 3) / 2 = (n + 5) / 2 by ring] at this
  rw [dist_comm, dist_eq_norm]
  exact this

/-- C73: `Point.distance_point` computed with rounding has relative error at most
`(1-u)^(-(n+5)/2) - 1`, however close to each other or far from the origin the points are; in
particular it is zero exactly for equal points. -/
theorem C73_distance_error [NeZero n] (h : StdRounding u fl) (x y : E n) :
    ∃ d, @Pt.distancePoint ℝ (rounded fl) (arr x) (arr y) = .ok d ∧
      ApproxRel u ((n + 5) / 2) d (dist x y) ∧ (d = 0 ↔ x = y) := by
  obtain ⟨d, hd, hr⟩ := distancePoint_rp h x y
  exact ⟨d, hd, h.approxRel hr dist_nonneg, hr.eq_zero.trans dist_eq_zero⟩

/-- C73: with rounding but without underflow `v.is_zero()` is exact, so the constructors of `Line` and
`Plane` reject exactly the zero vector. -/
theorem C73_is_zero (h : StdRounding u fl) (hu : u ≤ 1 / 2) (x : E n) :
    @Vec.isZero ℝ (rounded fl) (@Tol.default ℝ (rounded fl)) (arr x) = .ok (decide (x = 0)) := by
  classical
  simp only [Vec.isZero, dot_rd, ok_bind]
  rw [isclose_zero_rd h hu]
  have := (h.dotv_self_rp le_rfl (CRP.refl (eps u) x)).eq_zero
  simp only [this]
  congr 1
  simp


/-- C73: with rounding but without underflow, `Line(p, v)` and `Plane(p, v)` are built exactly for
`v ≠ 0`, from the given values. -/
theorem C73_constructors [NeZero n] (h : StdRounding u fl) (hu : u ≤ 1 / 2) (p v : E n) :
    (v ≠ 0 → @Line.new ℝ (rounded fl) (arr p) (arr v) = .ok ⟨arr p, arr v⟩ ∧
      @Plane.new ℝ (rounded fl) (arr p) (arr v) = .ok ⟨arr p, arr v⟩) ∧
    (v = 0 → @Line.new ℝ (rounded fl) (arr p) (arr v) =
        .error (.valueError "The vector must not be the zero vector.") ∧
      @Plane.new ℝ (rounded fl) (arr p) (arr v) =
        .error (.valueError "The vector must not be the zero vector.")) := by
  classical
  have hz := C73_is_zero h hu v
  constructor <;> intro hv
  · simp [Line.new, Plane.new, newLinePlane, new1D_rd, hz, hv]
  · subst hv
    simp [Line.new, Plane.new, newLinePlane, new1D_rd, hz]

/-- C73, the role of underflow: if products of size at most `η` underflow to zero, every vector with
coordinates below `√η` (`2^-538` for binary64) is taken for the zero vector, whatever the tolerances, and
`Line(p, v)` raises although `v ≠ 0`.  For every order of the additions. -/
theorem C73_underflow_defect {η : ℝ} [NeZero n] (hη : 0 ≤ η) (hfl : ∀ x, |x| ≤ η → fl x = 0) (x : E n)
    (hord : DotOrder fl.fl ((arr x).zip (arr x)) (fl.dot (arr x) (arr x))) (hx : ∀ i, (x i) ^ 2 ≤ η) (t s : ℝ) (ht : 0 ≤ t) (hs : 0 ≤ s) :
    @Vec.isZero ℝ (rounded fl) ⟨t, s⟩ (arr x) = .ok true := by
  have hz : @dotv ℝ (rounded fl) (arr x) (arr x) = 0 := by
    have h0 : fl 0 = 0 := hfl 0 (by simpa using hη)
    have h1 : ∀ (l : List (ℝ × ℝ)) (s : ℝ), DotOrder fl.fl l s → (∀ p ∈ l, |p.1 * p.2| ≤ η) → s = 0 := by
      intro l s h
      induction h with
      | one x y => intro hl; exact hfl _ (hl (x, y) (by simp))
      | start x y =>
        intro hl
        rw [show fl.fl (x * y) = 0 from hfl _ (hl (x, y) (by simp)), add_zero]; exact h0
      | startFma x y => intro hl; rw [zero_add]; exact hfl _ (hl (x, y) (by simp))
      | add _ _ ih1 ih2 =>
        intro hl
        rw [ih1 fun p hp => hl p (by simp [hp]), ih2 fun p hp => hl p (by simp [hp]), add_zero]; exact h0
      | fma x y _ ih =>
        intro hl
        rw [ih fun p hp => hl p (by simp [hp]), zero_add]; exact hfl _ (hl (x, y) (by simp))
      | perm hp _ ih => intro hl; exact ih fun p hp' => hl p (hp.mem_iff.mp hp')
    refine h1 _ _ hord fun p hp => ?_
    have hzip : (arr x).zip (arr x) = List.ofFn fun i => (x i, x i) := by
      apply List.ext_getElem <;> simp [arr]
    rw [hzip] at hp
    obtain ⟨i, rfl⟩ := List.mem_ofFn.mp hp
    rw [abs_of_nonneg (mul_self_nonneg _), ← pow_two]; exact hx i
  simp only [Vec.isZero, dot_rd, ok_bind, hz]
  rw [zero_rd, isclose_rd _ _ _ _ _ ht hs]
  simp

/-- The hypotheses of `C73_norm_error`, `C73_distance_error`, `C73_is_zero` hold for binary64 rounding. -/
example : ∃ d, @Pt.distancePoint ℝ (rounded (leftToRight (roundNearest 53))) (arr (vec2 0.1 0.2)) (arr (vec2 0.3 0.7)) = .ok d ∧
    ApproxRel (2 ^ (-53 : ℤ)) ((2 + 5) / 2) d (dist (vec2 0.1 0.2) (vec2 0.3 0.7)) := by
  obtain ⟨d, h1, h2, -⟩ := C73_distance_error (roundNearest_std (p := 53) (by norm_num))
    (vec2 0.1 0.2) (vec2 0.3 0.7)
  exact ⟨d, h1, by exact_mod_cast h2⟩

/-- A non-zero vector and a rounding that meet the hypotheses of `C73_underflow_defect`. -/
example : vec2 (2 ^ (-540 : ℤ)) 0 ≠ 0 ∧
    @Vec.isZero ℝ (rounded (leftToRight fun x => open Classical in if |x| ≤ 2 ^ (-1075 : ℤ) then 0 else roundNearest 53 x)) ⟨1 / 1000000000, 0⟩
      (arr (vec2 (2 ^ (-540 : ℤ)) 0)) = .ok true := by
  constructor
  · intro h
    have := congrArg (fun v : E 2 => v 0) h
    simp [vec2] at this
  · refine C73_underflow_defect (η := 2 ^ (-1075 : ℤ)) (by positivity) (fun x hx => if_pos hx) _ (leftToRight_dotOrder (by simp) (by simp [arr])) ?_ _ _
      (by norm_num) le_rfl
    intro i
    fin_cases i
    · simp only [vec2]
      show ((2 : ℝ) ^ (-540 : ℤ)) ^ 2 ≤ 2 ^ (-1075 : ℤ)
      rw [← zpow_natCast, ← zpow_mul]
      exact zpow_le_zpow_right₀ (by norm_num) (by norm_num)
    · simp [vec2]

/-! ## C74: symmetries that hold bit for bit -/

theorem dotv_comm_rd (hfl : fl.ByProducts) (a b : List ℝ) :
    @dotv ℝ (rounded fl) a b = @dotv ℝ (rounded fl) b a := by
  refine hfl a b b a ?_
  rw [List.zipWith_comm]
  congr 1
  funext x y
  exact mul_comm _ _

/-- Summing from left to right depends on the products only. -/
theorem leftToRight_byProducts (f : ℝ → ℝ) : (leftToRight f).ByProducts := by
  intro a b c d h
  have h1 : ∀ a b : List ℝ, List.zipWith (fun x y => f (x * y)) a b = (List.zipWith (· * ·) a b).map f := by
    intro a b; rw [List.map_zipWith]
  show List.foldl _ _ (List.zipWith (fun x y => f (x * y)) a b) = List.foldl _ _ (List.zipWith (fun x y => f (x * y)) c d)
  rw [h1, h1, h]

/-- C74: for every rounding whatsoever, swapping the two vectors gives the same bits in
`cosine_similarity`, `angle_between`, `is_perpendicular` and `is_parallel`. -/
theorem C74_symmetric [NeZero n] (hfl : fl.ByProducts) (x y : E n) (tol : Tol ℝ) :
    @Vec.cosineSimilarity ℝ (rounded fl) (arr x) (arr y) =
      @Vec.cosineSimilarity ℝ (rounded fl) (arr y) (arr x) ∧
    @Vec.angleBetween ℝ (rounded fl) (arr x) (arr y) = @Vec.angleBetween ℝ (rounded fl) (arr y) (arr x) ∧
    @Vec.isPerpendicular ℝ (rounded fl) tol (arr x) (arr y) =
      @Vec.isPerpendicular ℝ (rounded fl) tol (arr y) (arr x) ∧
    @Vec.isParallel ℝ (rounded fl) tol (arr x) (arr y) =
      @Vec.isParallel ℝ (rounded fl) tol (arr y) (arr x) := by
  have hc : @Vec.cosineSimilarity ℝ (rounded fl) (arr x) (arr y) =
      @Vec.cosineSimilarity ℝ (rounded fl) (arr y) (arr x) := by
    simp only [Vec.cosineSimilarity, new1D_rd, ok_bind, dot_rd, dotv_comm_rd hfl (arr x) (arr y), mul_rd,
      mul_comm (@Vec.norm ℝ (rounded fl) (arr x))]
  refine ⟨hc, by simp only [Vec.angleBetween, hc], ?_, ?_⟩
  · simp only [Vec.isPerpendicular, dot_rd, dotv_comm_rd hfl (arr x) (arr y)]
  · simp only [Vec.isParallel, new1D_rd, ok_bind, hc]
    have hz : ∀ z : E n, (∃ e, (@Vec.isZero ℝ (rounded fl) tol (arr z) = .error e ∧
        ∀ w : E n, @Vec.isZero ℝ (rounded fl) tol (arr w) = .error e)) ∨
        ∃ b, @Vec.isZero ℝ (rounded fl) tol (arr z) = .ok b := by
      intro z
      simp only [Vec.isZero, dot_rd, ok_bind, isclose]
      split
      · left; exact ⟨_, rfl, fun _ => rfl⟩
      · right; split
        · exact ⟨_, rfl⟩
        · split <;> exact ⟨_, rfl⟩
    rcases hz x with ⟨e, he, hall⟩ | ⟨b, hb⟩
    · simp [he, hall y]
    · rcases hz y with ⟨e, he, hall⟩ | ⟨b', hb'⟩
      · rw [hall x] at hb; cases hb
      · rw [hb, hb']
        cases b <;> cases b' <;> simp

/-- C74: for every rounding that commutes with negation (such as rounding to nearest), the distance of two
points does not depend on their order, and `u.cross(v)` is exactly `-(v.cross(u))`. -/
theorem C74_distance_symmetric [NeZero n] (hfl : fl.ByProducts) (hneg : ∀ x, fl (-x) = -fl x) (x y : E n) :
    @Pt.distancePoint ℝ (rounded fl) (arr x) (arr y) = @Pt.distancePoint ℝ (rounded fl) (arr y) (arr x) := by
  obtain ⟨z, hz, hi⟩ := fromPoints_rd fl x y
  obtain ⟨w, hw, hj⟩ := fromPoints_rd fl y x
  have hzw : ∀ i, z i = - w i := by
    intro i; rw [hi, hj, ← hneg, neg_sub]
  have hd : @dotv ℝ (rounded fl) (arr z) (arr z) = @dotv ℝ (rounded fl) (arr w) (arr w) :=
    hfl _ _ _ _ (by simp only [zipWith_arr, hzw, neg_mul_neg])
  simp only [Pt.distancePoint, hz, hw, ok_bind, Vec.norm, normv, toFloats_rd, hd]

theorem C74_cross_anticomm (hneg : ∀ x, fl (-x) = -fl x) (x y : E 3) :
    ∃ z : E 3, @Vec.cross ℝ (rounded fl) (arr x) (arr y) = .ok (arr z) ∧
      @Vec.cross ℝ (rounded fl) (arr y) (arr x) = .ok (arr (-z)) := by
  have h3 : ∀ x : E 3, @setDimension ℝ (rounded fl) 3 (arr x) = .ok (arr x) := by
    intro x
    simp [setDimension, new1D_rd]
  have hx : ∀ x y : E 3, ∃ z : E 3, @Vec.cross ℝ (rounded fl) (arr x) (arr y) = .ok (arr z) ∧
      z = vec3 (fl (fl (x 1 * y 2) - fl (x 2 * y 1))) (fl (fl (x 2 * y 0) - fl (x 0 * y 2)))
        (fl (fl (x 0 * y 1) - fl (x 1 * y 0))) := by
    intro x y
    refine ⟨_, ?_, rfl⟩
    simp only [Vec.cross, h3, new1D_rd, ok_bind]
    simp only [arr3, cross3, ok_bind, mul_rd, sub_rd]
    exact new1D_rd (vec3 _ _ _)
  obtain ⟨z, h1, e1⟩ := hx x y
  obtain ⟨w, h2, e2⟩ := hx y x
  refine ⟨z, h1, ?_⟩
  rw [h2, e1, e2]
  congr 2
  ext i
  fin_cases i
  · simp [vec3, ← hneg, mul_comm]
  · simp [vec3, ← hneg, mul_comm]
  · simp [vec3, ← hneg, mul_comm]

end SkSpatial
