import Verif.Props.Raises
import Verif.Lemmas.IeeeRange
import Verif.Props.Ieee4
/-! # C97: overflow and underflow in binary64 -/

namespace SkSpatial
open XReal StdRounding

variable {n : ℕ}

local notation "rn" => rounded (leftToRight (roundNearest 53))

section
variable (a b : XReal)
theorem xlt : @PyNum.lt XReal ieee a b = XReal.lt a b := rfl
theorem xeq : @PyNum.eq XReal ieee a b = XReal.eq a b := rfl
theorem xfin : @PyNum.isFinite XReal ieee a = XReal.isFinite a := rfl
theorem xadd : @PyNum.add XReal ieee a b = binary64 (XReal.add a b) := rfl
theorem xmul : @PyNum.mul XReal ieee a b = binary64 (XReal.mul a b) := rfl
theorem xdiv : @PyNum.div XReal ieee a b = binary64 (XReal.div a b) := rfl
end

/-- The default relative tolerance is not negative. -/
theorem ieee_tol' : ∃ r : ℝ, 0 ≤ r ∧ @Tol.default ℝ rn = ⟨r, 0⟩ ∧ @Tol.default XReal ieee = ⟨fin r, fin 0⟩ ∧ Rng 82 0 r := by
  obtain ⟨r, h1, h2, h3⟩ := ieee_tol
  refine ⟨r, ?_, h1, h2, h3⟩
  rw [tolDefault_rd] at h1
  have : roundNearest 53 (1 / 1000000000) = r := congrArg Tol.rel h1
  rw [← this]
  exact (std53.rp _).nonneg (by norm_num)

theorem isclose_zero_zero {r s : ℝ} (hr : 0 ≤ r) (hs : 0 ≤ s) : @isclose XReal ieee ⟨fin r, fin s⟩ (fin 0) (@zero XReal ieee) = .ok true := by
  simp [isclose, ieee_zero, zero_rd, ieee_toFloat, xlt, xeq, XReal.lt, XReal.eq, not_lt.mpr hr, not_lt.mpr hs]

theorem isZero_huge {x : E n} {i : Fin n} (hi : (2 : ℝ) ^ (512 : ℤ) ≤ |x i|) {r s : ℝ} (hr : 0 ≤ r) (hs : 0 ≤ s) :
    @Vec.isZero XReal ieee ⟨fin r, fin s⟩ (xarr x) = .ok false := by
  simp only [Vec.isZero, dot_xarr, dotv_self_overflow hi, ok_bind]
  simp [isclose, ieee_zero, zero_rd, ieee_toFloat, xlt, xeq, xfin, XReal.lt, XReal.eq, XReal.isFinite, not_lt.mpr hr, not_lt.mpr hs]

/-- Dividing by an overflowed norm gives the zero vector. -/
theorem unit_huge {x : E n} {i : Fin n} (hi : (2 : ℝ) ^ (512 : ℤ) ≤ |x i|) :
    @Vec.unit XReal ieee (xarr x) = .ok (xarr (0 : E n)) := by
  have h : @sdiv XReal ieee (xarr x) posInf = xarr (0 : E n) := by
    apply List.ext_getElem
    · simp [sdiv]
    · intro j h1 h2
      simp only [sdiv, xarr, List.getElem_map, arr, List.getElem_ofFn, PiLp.zero_apply]
      exact binary64_underflow (by simp)
  simp only [Vec.unit, Vec.norm, norm_overflow hi, ieee_zero, xeq, XReal.eq, Bool.false_eq_true, if_false, h]

/-- C97: a vector with a finite coordinate of magnitude at least `2⁵¹²` (about `1.3e154`) is accepted everywhere, but its norm
overflows, its unit vector is silently the zero vector, and it is parallel to no non-zero vector, itself included. -/
theorem C97_vector_overflow [NeZero n] {x : E n} {i : Fin n} (hi : (2 : ℝ) ^ (512 : ℤ) ≤ |x i|) :
    @Vec.norm XReal ieee (xarr x) = posInf ∧ @Vec.unit XReal ieee (xarr x) = .ok (xarr (0 : E n)) ∧
    @Vec.cosineSimilarity XReal ieee (xarr x) (xarr x) = .ok nan ∧ @Vec.angleBetween XReal ieee (xarr x) (xarr x) = .ok nan ∧
    ∀ y : E n, @Vec.isZero XReal ieee (@Tol.default XReal ieee) (xarr y) = .ok false →
      @Vec.isParallel XReal ieee (@Tol.default XReal ieee) (xarr x) (xarr y) = .ok false := by
  classical
  obtain ⟨r, hr0, hrr, hr, hr'⟩ := ieee_tol'
  have hN := norm_overflow hi
  have hc : @Vec.cosineSimilarity XReal ieee (xarr x) (xarr x) = .ok nan := by
    simp only [Vec.cosineSimilarity, ieee_new1D, ok_bind, Vec.norm, hN, dot_xarr, dotv_self_overflow hi]
    have e1 : @PyNum.mul XReal ieee posInf posInf = posInf := by
      show binary64 (XReal.mul posInf posInf) = posInf
      simp [XReal.mul, XReal.ofSign, XReal.sgn, binary64]
    rw [e1]
    rfl
  refine ⟨hN, unit_huge hi, hc, ?_, ?_⟩
  · simp only [Vec.angleBetween, hc, ok_bind]
    rfl
  · intro y hy
    have e1 : @PyNum.mul XReal ieee posInf (@normv XReal ieee (xarr y)) = posInf ∨
        @PyNum.mul XReal ieee posInf (@normv XReal ieee (xarr y)) = nan := by
      have hy := norm_nn y
      cases h : @normv XReal ieee (xarr y) with
      | fin a =>
        rw [h] at hy
        rcases (show (0 : ℝ) ≤ a from hy).lt_or_eq with ha | ha
        · left; simp [xmul, XReal.mul, XReal.ofSign, XReal.sgn, binary64, ha]
        · right; simp [xmul, XReal.mul, XReal.ofSign, XReal.sgn, binary64, ← ha]
      | posInf => left; simp [xmul, XReal.mul, XReal.ofSign, XReal.sgn, binary64]
      | negInf => rw [h] at hy; exact hy.elim
      | nan => rw [h] at hy; exact hy.elim
    have e2 : ∀ d D, D = posInf ∨ D = nan → @PyNum.div XReal ieee d D = fin 0 ∨ @PyNum.div XReal ieee d D = nan := by
      rintro d D (rfl | rfl)
      · cases d
        · left; exact binary64_underflow (by simp)
        all_goals right; rfl
      · right; cases d <;> rfl
    have e3 : ∃ c, @Vec.cosineSimilarity XReal ieee (xarr x) (xarr y) = .ok c ∧ (c = fin 0 ∨ c = nan) := by
      refine ⟨@clip XReal ieee (@PyNum.div XReal ieee (@dotv XReal ieee (xarr x) (xarr y))
        (@PyNum.mul XReal ieee posInf (@normv XReal ieee (xarr y)))) (@PyNum.ofInt XReal ieee (-1)) (@one XReal ieee), ?_, ?_⟩
      · simp only [Vec.cosineSimilarity, ieee_new1D, ok_bind, Vec.norm, hN, dot_xarr]
        have e4 : @PyNum.eq XReal ieee (@PyNum.mul XReal ieee posInf (@normv XReal ieee (xarr y))) (@zero XReal ieee) = false := by
          rcases e1 with h | h <;> rw [h] <;> rfl
        simp only [e4, Bool.false_eq_true, if_false, pure_ok]
      · rcases e2 (@dotv XReal ieee (xarr x) (xarr y)) _ e1 with h | h <;> rw [h]
        · left
          rw [clip_ie, clip_rn]
          simp
        · right; rfl
    obtain ⟨c, hc, hc'⟩ := e3
    rw [hr] at hy
    simp only [Vec.isParallel, hr, isZero_huge hi hr0 le_rfl, hy, hc, ieee_new1D, ok_bind, pure_ok, Bool.false_eq_true, if_false]
    rcases hc' with rfl | rfl
    · rw [ieee_abs, abs_rd, abs_zero, ieee_one, one_rd,
        ieee_isclose hr' (Rng.zero 0 0) Rng.one (by norm_num) (by norm_num) (by norm_num) (by norm_num), ← hrr]
      obtain ⟨b, hb, -, hb'⟩ := isclose_one_rd std53 (by norm_num) (a := 0) le_rfl zero_le_one
      rw [one_rd] at hb
      rw [hb]
      cases b
      · rfl
      · exact absurd (hb' rfl) (by norm_num)
    · have h1 : ∀ z, @PyNum.sub XReal ieee z nan = nan := by intro z; cases z <;> rfl
      simp [isclose, ieee_zero, zero_rd, ieee_one, one_rd, ieee_toFloat, xlt, xeq, xfin, XReal.lt, XReal.eq, XReal.isFinite, not_lt.mpr hr0,
        show @PyNum.abs XReal ieee nan = nan from rfl, h1]
      refine ⟨⟨?_, ?_⟩, ?_⟩ <;> rfl

/-- C97: lines and planes are built from such a direction or normal without complaint. -/
theorem C97_constructors_accept [NeZero n] {p v : E n} {i : Fin n} (hi : (2 : ℝ) ^ (512 : ℤ) ≤ |v i|) :
    @Line.new XReal ieee (xarr p) (xarr v) = .ok ⟨xarr p, xarr v⟩ ∧ @Plane.new XReal ieee (xarr p) (xarr v) = .ok ⟨xarr p, xarr v⟩ := by
  obtain ⟨r, hr0, -, hr, -⟩ := ieee_tol'
  simp [Line.new, Plane.new, newLinePlane, ieee_new1D, hr, isZero_huge hi hr0 le_rfl]

theorem dotv_zero (w : E n) : @dotv XReal ieee (xarr (0 : E n)) (xarr w) = fin 0 := by
  rw [dotv_xarr]
  have h : ∀ l : List XReal, (∀ a ∈ l, a = fin 0) → l.foldl (@PyNum.add XReal ieee) (fin 0) = fin 0 := by
    intro l
    induction l with
    | nil => intro _; rfl
    | cons a l ih =>
      intro hl
      rw [List.foldl_cons, hl a (by simp), show @PyNum.add XReal ieee (fin 0) (fin 0) = fin 0 from binary64_underflow (by simp)]
      exact ih fun b hb => hl b (by simp [hb])
  refine h _ fun a ha => ?_
  obtain ⟨j, rfl⟩ := List.mem_ofFn.mp ha
  exact binary64_underflow (by simp)

/-- C97: such a plane contains every point: all signed distances are computed as `0`. -/
theorem C97_plane_contains_everything [NeZero n] {p v x : E n} {i : Fin n} (hi : (2 : ℝ) ^ (512 : ℤ) ≤ |v i|) (hp : ModerateV p)
    (hx : ModerateV x) :
    @Plane.distancePointSigned XReal ieee ⟨xarr p, xarr v⟩ (xarr x) = .ok (fin 0) ∧
    @Plane.sidePoint XReal ieee ⟨xarr p, xarr v⟩ (xarr x) = .ok 0 ∧
    ∀ r s : ℝ, 0 ≤ r → 0 ≤ s → @Plane.containsPoint XReal ieee ⟨fin r, fin s⟩ ⟨xarr p, xarr v⟩ (xarr x) = .ok true := by
  obtain ⟨w, -, hw, -⟩ := fromPoints_ie hp hx
  have hs : @Plane.distancePointSigned XReal ieee ⟨xarr p, xarr v⟩ (xarr x) = .ok (fin 0) := by
    simp only [Plane.distancePointSigned, hw, ok_bind, Vec.scalarProjection, unit_huge hi, dot_xarr, dotv_zero]
  refine ⟨hs, ?_, fun r s hr hs' => ?_⟩
  · simp [Plane.sidePoint, hs, intSign, ieee_zero, zero_rd, xlt, xeq, XReal.lt, XReal.eq]
  · simp only [Plane.containsPoint, containsPointFn, Plane.distancePoint, hs, ok_bind, pure_ok, ieee_abs, abs_rd, abs_zero]
    exact isclose_zero_zero hr hs'

/-- C97: projecting any point onto such a line gives the point the line was built from, and the distance to the line is the
distance to that point. -/
theorem C97_line_projects_to_its_point [NeZero n] (hn : n ≤ 2 ^ 53) {p v x : E n} {i : Fin n} (hi : (2 : ℝ) ^ (512 : ℤ) ≤ |v i|)
    (hv : ∀ j, |v j| ≤ (2 : ℝ) ^ (900 : ℤ)) (hp : ModerateV p) (hx : ModerateV x) :
    @Line.projectPoint XReal ieee ⟨xarr p, xarr v⟩ (xarr x) = .ok (xarr p) ∧
    @Line.distancePoint XReal ieee ⟨xarr p, xarr v⟩ (xarr x) = @Pt.distancePoint XReal ieee (xarr p) (xarr x) := by
  obtain ⟨w, -, hw, hwr⟩ := fromPoints_ie hp hx
  obtain ⟨d, hd⟩ := dotv_bounded hn (M := 951) (by norm_num) (by norm_num) (x := v) (y := w) (fun j => by
    rw [abs_mul]
    calc |v j| * |w j| ≤ (2 : ℝ) ^ (900 : ℤ) * (2 : ℝ) ^ (51 : ℤ) := mul_le_mul (hv j) (hwr j).2 (abs_nonneg _) (by positivity)
      _ = (2 : ℝ) ^ (951 : ℤ) := by rw [← zpow_add₀ (by norm_num)]; norm_num)
  have h1 : @PyNum.div XReal ieee (fin d) posInf = fin 0 := binary64_underflow (by simp)
  have h2 : @smul XReal ieee (fin 0) (xarr v) = xarr (0 : E n) := by
    apply List.ext_getElem
    · simp [smul]
    · intro j h1 h2
      simp only [smul, xarr, List.getElem_map, arr, List.getElem_ofFn, PiLp.zero_apply]
      exact binary64_underflow (by simp)
  have h3 : @vadd XReal ieee (xarr p) (xarr (0 : E n)) = .ok (xarr p) := by
    refine ieee_zip (g := fun a _ => a) (fun _ => rfl) fun j => ?_
    show binary64 (fin (p j + 0)) = fin (p j)
    rw [add_zero]
    exact (hp j).1
  have hq : @Line.projectPoint XReal ieee ⟨xarr p, xarr v⟩ (xarr x) = .ok (xarr p) := by
    simp only [Line.projectPoint, hw, ok_bind, Vec.projectVector, dot_xarr, hd, dotv_self_overflow hi, h1, h2, pure_ok, h3]
  exact ⟨hq, by simp only [Line.distancePoint, ieee_wrapped, hq, ok_bind]⟩

/-- C97: a vector whose coordinates are all of magnitude at most `2⁻⁵³⁸` (about `1.1e-162`) has norm `0`, is taken for the zero
vector, has no unit vector, is rejected by the constructors of lines and planes, and counts as parallel to every vector. -/
theorem C97_vector_underflow [NeZero n] {v : E n} (hv : ∀ j, |v j| ≤ (2 : ℝ) ^ (-538 : ℤ)) (p y : E n) :
    @Vec.norm XReal ieee (xarr v) = fin 0 ∧ @Vec.isZero XReal ieee (@Tol.default XReal ieee) (xarr v) = .ok true ∧
    @Vec.unit XReal ieee (xarr v) = .error (.valueError "The magnitude must not be zero.") ∧
    @Line.new XReal ieee (xarr p) (xarr v) = .error (.valueError "The vector must not be the zero vector.") ∧
    @Plane.new XReal ieee (xarr p) (xarr v) = .error (.valueError "The vector must not be the zero vector.") ∧
    @Vec.isParallel XReal ieee (@Tol.default XReal ieee) (xarr v) (xarr y) = .ok true := by
  classical
  obtain ⟨r, hr0, -, hr, -⟩ := ieee_tol'
  have hd : @dotv XReal ieee (xarr v) (xarr v) = fin 0 := by
    rw [← dotv_zero (0 : E n), dotv_xarr, dotv_xarr]
    congr 2
    funext j
    rw [binary64_underflow, binary64_underflow (by simp)]
    rw [abs_mul]
    calc |v j| * |v j| ≤ (2 : ℝ) ^ (-538 : ℤ) * (2 : ℝ) ^ (-538 : ℤ) := mul_le_mul (hv j) (hv j) (abs_nonneg _) (by positivity)
      _ = (2 : ℝ) ^ (-1076 : ℤ) := by rw [← zpow_add₀ (by norm_num)]; norm_num
  have hN : @normv XReal ieee (xarr v) = fin 0 := by
    unfold normv
    rw [ieee_toFloats, hd]
    show binary64 (XReal.sqrt (fin 0)) = fin 0
    rw [XReal.sqrt, if_neg (lt_irrefl _), Real.sqrt_zero]
    exact binary64_underflow (by simp)
  have hz : @Vec.isZero XReal ieee (@Tol.default XReal ieee) (xarr v) = .ok true := by
    simp only [Vec.isZero, dot_xarr, hd, ok_bind, hr]
    exact isclose_zero_zero hr0 le_rfl
  refine ⟨hN, hz, ?_, ?_, ?_, ?_⟩
  · simp [Vec.unit, Vec.norm, hN, ieee_zero, zero_rd, xeq, XReal.eq]
  · simp [Line.new, newLinePlane, ieee_new1D, hz]
  · simp [Plane.new, newLinePlane, ieee_new1D, hz]
  · simp [Vec.isParallel, hz]

/-! ### Concrete floats in these ranges -/

theorem isFloat_pow {e : ℤ} (h1 : -1074 ≤ e) (h2 : e ≤ 1023) : IsFloat ((2 : ℝ) ^ e) := by
  unfold IsFloat
  rw [binary64_fin (.inl (Mul2.mono (m := -e) ⟨1, by rw [← zpow_add₀ (by norm_num)]; simp⟩ (by omega))), rn_pow]
  rw [abs_of_pos (by positivity)]
  exact zpow_le_zpow_right₀ (by norm_num) h2

/-- C97: the vector `(2⁶⁰⁰, 0, 0)` is finite, the plane through the origin with this normal contains `(7, 0, 0)`, and the
projection of `(7, 0, 0)` onto the line through the origin with this direction is the origin. -/
example : IsFloat ((2 : ℝ) ^ (600 : ℤ)) ∧ ∃ p v x : E 3, v = vec3 ((2 : ℝ) ^ (600 : ℤ)) 0 0 ∧ x = vec3 ((7 : ℤ) : ℝ) 0 0 ∧
    @Plane.containsPoint XReal ieee ⟨fin 0, fin 0⟩ ⟨xarr p, xarr v⟩ (xarr x) = .ok true ∧
    @Line.projectPoint XReal ieee ⟨xarr p, xarr v⟩ (xarr x) = .ok (xarr p) ∧ p ≠ x := by
  have hv : (2 : ℝ) ^ (512 : ℤ) ≤ |vec3 ((2 : ℝ) ^ (600 : ℤ)) 0 0 0| := by
    show (2 : ℝ) ^ (512 : ℤ) ≤ |(2 : ℝ) ^ (600 : ℤ)|
    rw [abs_of_pos (by positivity)]
    exact zpow_le_zpow_right₀ (by norm_num) (by norm_num)
  have hv' : ∀ j, |vec3 ((2 : ℝ) ^ (600 : ℤ)) 0 0 j| ≤ (2 : ℝ) ^ (900 : ℤ) := by
    intro j
    fin_cases j
    · show |(2 : ℝ) ^ (600 : ℤ)| ≤ _
      rw [abs_of_pos (by positivity)]
      exact zpow_le_zpow_right₀ (by norm_num) (by norm_num)
    · show |(0 : ℝ)| ≤ _
      rw [abs_zero]; positivity
    · show |(0 : ℝ)| ≤ _
      rw [abs_zero]; positivity
  have hp : ModerateV (vec3 0 0 0) := moderate_vec3 moderate_zero moderate_zero moderate_zero
  have hx : ModerateV (vec3 ((7 : ℤ) : ℝ) 0 0) := moderate_vec3 (moderate_int (by norm_num)) moderate_zero moderate_zero
  refine ⟨isFloat_pow (by norm_num) (by norm_num), _, _, _, rfl, rfl, (C97_plane_contains_everything hv hp hx).2.2 0 0 le_rfl le_rfl,
    (C97_line_projects_to_its_point (by norm_num) hv hv' hp hx).1, ?_⟩
  intro h
  have := congrArg (fun x : E 3 => x 0) h
  simp [vec3] at this

/-- C97: `(2⁻⁵³⁸, 0)` is a non-zero vector of floats that is taken for the zero vector. -/
example : IsFloat ((2 : ℝ) ^ (-538 : ℤ)) ∧ vec2 ((2 : ℝ) ^ (-538 : ℤ)) 0 ≠ 0 ∧
    @Vec.isZero XReal ieee (@Tol.default XReal ieee) (xarr (vec2 ((2 : ℝ) ^ (-538 : ℤ)) 0)) = .ok true := by
  refine ⟨isFloat_pow (by norm_num) (by norm_num), ?_, (C97_vector_underflow ?_ 0 0).2.1⟩
  · intro h
    have : (2 : ℝ) ^ (-538 : ℤ) = 0 := congrArg (fun x : E 2 => x 0) h
    exact absurd this (by positivity)
  · intro j
    fin_cases j
    · show |(2 : ℝ) ^ (-538 : ℤ)| ≤ _
      rw [abs_of_pos (by positivity)]
    · show |(0 : ℝ)| ≤ _
      rw [abs_zero]; positivity

theorem fromPoints_zero_ie [NeZero n] {v : E n} (hf : ∀ j, IsFloat (v j)) :
    @Vec.fromPoints XReal ieee (xarr (0 : E n)) (xarr v) = .ok (xarr v) := by
  have h : @vsub XReal ieee (xarr v) (xarr (0 : E n)) = .ok (xarr v) := by
    refine ieee_zip (z := v) (g := fun a _ => a) (fun _ => rfl) fun i => ?_
    show binary64 (fin (v i - 0)) = fin (v i)
    rw [sub_zero]
    exact hf i
  simp only [Vec.fromPoints, h, ok_bind, ieee_new1D]

/-- C97: let `v` be a direction of floats with a coordinate of magnitude at least `2⁵¹²`.  Then the line through the origin with
direction `v` contains the point `v`, but its projection onto the line is an array of NaN, and `distance_point`, `contains_point`
and `sum_squares` raise `AttributeError`. -/
theorem C97_line_attribute_error [NeZero n] {v : E n} {i : Fin n} (hf : ∀ j, IsFloat (v j)) (hi : (2 : ℝ) ^ (512 : ℤ) ≤ |v i|) :
    @Line.projectPoint XReal ieee ⟨xarr (0 : E n), xarr v⟩ (xarr v) = .ok (List.replicate n nan) ∧
    RaisesAttributeError (@Line.distancePoint XReal ieee ⟨xarr (0 : E n), xarr v⟩ (xarr v)) ∧
    (∀ t, RaisesAttributeError (@Line.containsPoint XReal ieee t ⟨xarr (0 : E n), xarr v⟩ (xarr v))) ∧
    RaisesAttributeError (@Line.sumSquares XReal ieee ⟨xarr (0 : E n), xarr v⟩ [xarr v]) := by
  have hn := NeZero.ne n
  have hp : @Line.projectPoint XReal ieee ⟨xarr (0 : E n), xarr v⟩ (xarr v) = .ok (List.replicate n nan) := by
    simp only [Line.projectPoint, fromPoints_zero_ie hf, ok_bind, Vec.projectVector, dot_xarr, dotv_self_overflow hi, pure_ok]
    have hs : @smul XReal ieee (@PyNum.div XReal ieee posInf posInf) (xarr v) = List.replicate n nan := by
      rw [List.eq_replicate_iff]
      refine ⟨by simp [smul], fun b hb => ?_⟩
      obtain ⟨c, hc, rfl⟩ := List.mem_map.mp hb
      have e : @PyNum.div XReal ieee posInf posInf = nan := rfl
      rw [e]
      obtain ⟨r, -, rfl⟩ := List.mem_map.mp hc
      simp [xmul, XReal.mul, XReal.ofSign, XReal.sgn, binary64]
    rw [hs]
    unfold vadd broadcast2
    rw [if_pos (by simp)]
    congr 1
    rw [List.eq_replicate_iff]
    refine ⟨by simp, fun b hb => ?_⟩
    rw [List.mem_iff_getElem] at hb
    obtain ⟨k, hk, rfl⟩ := hb
    simp [xarr]
    rfl
  have hd : RaisesAttributeError (@Line.distancePoint XReal ieee ⟨xarr (0 : E n), xarr v⟩ (xarr v)) := by
    rw [@C100_distance_point_attribute XReal ieee]
    exact ⟨_, hp, nan, List.mem_replicate.mpr ⟨hn, rfl⟩, rfl⟩
  obtain ⟨m, hm⟩ := hd
  refine ⟨hp, ⟨m, hm⟩, fun t => ⟨m, ?_⟩, m, ?_⟩
  · simp only [Line.containsPoint, containsPointFn, hm, error_bind]
  · simp [Line.sumSquares, sumSquaresFn, checkRows, hm]

/-- C97: `Line([0, 0], [2⁶⁰⁰, 0]).distance_point([2⁶⁰⁰, 0])` raises `AttributeError`. -/
example : ∃ L, @Line.new XReal ieee [fin 0, fin 0] [fin ((2 : ℝ) ^ (600 : ℤ)), fin 0] = .ok L ∧
    RaisesAttributeError (@Line.distancePoint XReal ieee L [fin ((2 : ℝ) ^ (600 : ℤ)), fin 0]) := by
  have hi : (2 : ℝ) ^ (512 : ℤ) ≤ |(vec2 ((2 : ℝ) ^ (600 : ℤ)) 0) 0| := by
    show _ ≤ |(2 : ℝ) ^ (600 : ℤ)|
    rw [abs_of_pos (by positivity)]
    exact zpow_le_zpow_right₀ (by norm_num) (by norm_num)
  have hz : xarr (0 : E 2) = [fin 0, fin 0] := by simp [xarr, arr2]
  have hv : xarr (vec2 ((2 : ℝ) ^ (600 : ℤ)) 0) = [fin ((2 : ℝ) ^ (600 : ℤ)), fin 0] := by simp [xarr, arr_vec2]
  have hc := (C97_constructors_accept (p := (0 : E 2)) hi).1
  have ha := (C97_line_attribute_error (fun j => by
    fin_cases j
    · exact isFloat_pow (by norm_num) (by norm_num)
    · exact moderate_zero.1) hi).2.1
  rw [hz, hv] at hc ha
  exact ⟨_, hc, ha⟩

end SkSpatial
