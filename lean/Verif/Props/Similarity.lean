import Verif.Lemmas.SimilarityRank
import Verif.Props.Line
import Verif.Props.Vector2
/-!
# C101: the results do not depend on the choice of coordinates (vectors, points, lines)

Turning, reflecting, shifting and uniformly scaling all inputs moves the results along.
-/

namespace SkSpatial
open Finset

variable {n : ℕ}

theorem corresponds_moved (φ : Similarity n) {a b : Res (List ℝ)} {x : E n} (ha : a = .ok (arr x))
    (hb : b = .ok (arr (φ.pt x))) : Corresponds φ.Moved a b := .inl ⟨_, _, ha, hb, x, rfl, rfl⟩

theorem corresponds_ok {α β : Type} {R : α → β → Prop} {a : Res α} {b : Res β} {x : α} {y : β} (ha : a = .ok x)
    (hb : b = .ok y) (h : R x y) : Corresponds R a b := .inl ⟨x, y, ha, hb, h⟩

theorem corresponds_error {α β : Type} {R : α → β → Prop} {a : Res α} {b : Res β}
    (ha : ∃ msg, a = .error (.valueError msg)) (hb : ∃ msg, b = .error (.valueError msg)) : Corresponds R a b := .inr ⟨ha, hb⟩

/-- C101: lengths and distances scale with the similarity, unit vectors turn with it, cosines, angles,
parallelism and perpendicularity do not change. -/
theorem C101_vectors [NeZero n] (φ : Similarity n) (u v : E n) {tol : Tol ℝ} (h0 : tol.abs = 0) :
    Vec.norm (arr (φ.vec u)) = φ.c * Vec.norm (arr u) ∧
    Corresponds (fun r r' => r' = φ.c * r) (Pt.distancePoint (arr u) (arr v))
      (Pt.distancePoint (arr (φ.pt u)) (arr (φ.pt v))) ∧
    (u ≠ 0 → Corresponds (fun l l' => ∃ x : E n, l = arr x ∧ l' = arr (φ.U x)) (Vec.unit (arr u))
      (Vec.unit (arr (φ.vec u)))) ∧
    Vec.isZero tol (arr (φ.vec u)) = Vec.isZero tol (arr u) ∧
    Vec.cosineSimilarity (arr (φ.vec u)) (arr (φ.vec v)) = Vec.cosineSimilarity (arr u) (arr v) ∧
    Vec.angleBetween (arr (φ.vec u)) (arr (φ.vec v)) = Vec.angleBetween (arr u) (arr v) ∧
    Vec.isParallel tol (arr (φ.vec u)) (arr (φ.vec v)) = Vec.isParallel tol (arr u) (arr v) ∧
    Vec.isPerpendicular tol (arr (φ.vec u)) (arr (φ.vec v)) = Vec.isPerpendicular tol (arr u) (arr v) ∧
    (u ≠ 0 → Corresponds (fun l l' => ∃ x : E n, l = arr x ∧ l' = arr (φ.vec x)) (Vec.projectVector (arr u) (arr v))
      (Vec.projectVector (arr (φ.vec u)) (arr (φ.vec v)))) := by
  have hcos : Vec.cosineSimilarity (arr (φ.vec u)) (arr (φ.vec v)) = Vec.cosineSimilarity (arr u) (arr v) := by
    by_cases hu : u = 0
    · subst hu
      simp [Vec.cosineSimilarity]
    · by_cases hv : v = 0
      · subst hv
        simp [Vec.cosineSimilarity]
      · rw [cosineSimilarity_arr hu hv, cosineSimilarity_arr (φ.vec_ne hu) (φ.vec_ne hv), φ.cosE_vec]
  refine ⟨by simp, ?_, ?_, ?_, hcos, ?_, φ.isParallel_vec h0 u v, φ.isPerpendicular_vec h0 u v, ?_⟩
  · exact corresponds_ok (distancePoint_arr _ _) (distancePoint_arr _ _) (φ.dist_pt _ _)
  · intro hu
    refine corresponds_ok (unit_arr hu) (unit_arr (φ.vec_ne hu)) ⟨_, rfl, ?_⟩
    rw [φ.norm_vec, Similarity.vec, smul_smul, mul_inv, mul_comm φ.c⁻¹, mul_assoc, inv_mul_cancel₀ φ.ne, mul_one,
      map_smul]
  · simp only [Vec.isZero, dot_arr, ok_bind, φ.inner_vec, zero_real]
    exact isclose_mul_zero (pow_pos φ.pos 2) h0 _
  · simp only [Vec.angleBetween, hcos]
  · intro _
    refine corresponds_ok (projectVector_arr _ _) (projectVector_arr _ _) ⟨_, rfl, ?_⟩
    rw [φ.quot_vec, φ.vec_smul]

/-- C101: orientation-dependent results keep their value under rotations and change sign under
reflections; the cross product moves up to the sign and the area factor. -/
theorem C101_orientation2 (φ : Similarity 2) (u v : E 2) :
    Corresponds (fun s s' : ℤ => (s' : ℝ) = φ.orient * s) (Vec.sideVector (arr u) (arr v))
      (Vec.sideVector (arr (φ.vec u)) (arr (φ.vec v))) ∧
    (φ.orient = 1 → Vec.angleSigned (arr (φ.vec u)) (arr (φ.vec v)) = Vec.angleSigned (arr u) (arr v)) ∧
    (φ.orient = -1 → Corresponds (fun a a' : ℝ => a' = -a ∨ (a = Real.pi ∧ a' = Real.pi)) (Vec.angleSigned (arr u) (arr v))
      (Vec.angleSigned (arr (φ.vec u)) (arr (φ.vec v)))) := by
  have hd := φ.det2_vec u v
  have hc : 0 < φ.c ^ 2 := pow_pos φ.pos 2
  refine ⟨?_, fun h => ?_, fun h => ?_⟩
  · obtain ⟨s, hs, hs1, -⟩ := sideVector_arr u v
    obtain ⟨s', hs', hs1', -⟩ := sideVector_arr (φ.vec u) (φ.vec v)
    refine corresponds_ok hs hs' ?_
    rw [hs1, hs1', show φ.vec u 1 * φ.vec v 0 - φ.vec u 0 * φ.vec v 1 =
      φ.c ^ 2 * (φ.orient * (u 1 * v 0 - u 0 * v 1)) by linear_combination -hd]
    rw [sign_mul, sign_pos hc, one_mul, sign_mul]
    rcases φ.orient_eq with h | h <;> simp [h]
  · rw [angleSigned_arr, angleSigned_arr, φ.inner_vec, hd, h, mul_one]
    congr 1
    rw [show (⟨φ.c ^ 2 * inner ℝ u v, φ.c ^ 2 * (u 0 * v 1 - u 1 * v 0)⟩ : ℂ) =
      ((φ.c ^ 2 : ℝ) : ℂ) * ⟨inner ℝ u v, u 0 * v 1 - u 1 * v 0⟩ by
        apply Complex.ext
        · rw [Complex.re_ofReal_mul]
        · rw [Complex.im_ofReal_mul]]
    exact Complex.arg_real_mul _ hc
  · refine corresponds_ok (angleSigned_arr _ _) (angleSigned_arr _ _) ?_
    rw [φ.inner_vec, hd, h]
    rw [show (⟨φ.c ^ 2 * inner ℝ u v, φ.c ^ 2 * -1 * (u 0 * v 1 - u 1 * v 0)⟩ : ℂ) =
      ((φ.c ^ 2 : ℝ) : ℂ) * (starRingEnd ℂ) ⟨inner ℝ u v, u 0 * v 1 - u 1 * v 0⟩ by
        apply Complex.ext
        · rw [Complex.re_ofReal_mul, Complex.conj_re]
        · rw [Complex.im_ofReal_mul, Complex.conj_im]; ring]
    rw [Complex.arg_real_mul _ hc, Complex.arg_conj]
    split_ifs with hp
    · exact .inr ⟨hp, rfl⟩
    · exact .inl rfl

/-- C101: the cross product in space. -/
theorem C101_orientation3 (φ : Similarity 3) (u v : E 3) :
    Corresponds (fun l l' => ∃ x : E 3, l = arr x ∧ l' = arr ((φ.orient * φ.c) • φ.vec x)) (Vec.cross (arr u) (arr v))
      (Vec.cross (arr (φ.vec u)) (arr (φ.vec v))) := by
  refine corresponds_ok (cross_arr (by norm_num) (by norm_num) u v) (cross_arr (by norm_num) (by norm_num) _ _) ⟨_, rfl, ?_⟩
  simp only [pad3_self, φ.crossE_vec]

theorem inner_crossE_crossE (w e d : E 3) : (inner ℝ (crossE w e) (crossE d e) : ℝ) =
    inner ℝ w d * ‖e‖ ^ 2 - inner ℝ w e * inner ℝ d e := by
  rw [norm_sq3, inner3, inner3, inner3, inner3]; simp [crossE, vec3]; ring

theorem meetParam_eq (hn : n ≤ 3) (p d q e : E n) : meetParam p d q e =
    (inner ℝ (q - p) d * ‖e‖ ^ 2 - inner ℝ (q - p) e * inner ℝ d e) / (‖d‖ ^ 2 * ‖e‖ ^ 2 - (inner ℝ d e : ℝ) ^ 2) := by
  rw [meetParam, inner_crossE_crossE, crossE_norm_sq, inner_pad3 hn, inner_pad3 hn, inner_pad3 hn, norm_pad3 hn, norm_pad3 hn]

theorem Similarity.meetParam_pt (φ : Similarity n) (hn : n ≤ 3) (p d q e : E n) :
    meetParam (φ.pt p) (φ.vec d) (φ.pt q) (φ.vec e) = meetParam p d q e := by
  rw [meetParam_eq hn, meetParam_eq hn, φ.pt_sub, φ.inner_vec, φ.inner_vec, φ.inner_vec, φ.norm_vec, φ.norm_vec]
  have h : φ.c ^ 4 ≠ 0 := pow_ne_zero 4 φ.ne
  rw [← mul_div_mul_left (inner ℝ (q - p) d * ‖e‖ ^ 2 - inner ℝ (q - p) e * inner ℝ d e) _ h]
  congr 1 <;> ring

theorem Similarity.lineDistances_pt (φ : Similarity n) (p d q e : E n) :
    lineDistances (φ.pt p) (φ.vec d) (φ.pt q) (φ.vec e) = (fun r => φ.c * r) '' lineDistances p d q e := by
  ext r
  simp only [lineDistances, φ.lineSet_eq, Set.mem_setOf_eq, Set.mem_image]
  constructor
  · rintro ⟨_, ⟨x, hx, rfl⟩, _, ⟨y, hy, rfl⟩, rfl⟩
    exact ⟨_, ⟨x, hx, y, hy, rfl⟩, (φ.dist_pt x y).symm⟩
  · rintro ⟨_, ⟨x, hx, y, hy, rfl⟩, rfl⟩
    exact ⟨_, ⟨x, hx, rfl⟩, _, ⟨y, hy, rfl⟩, (φ.dist_pt x y).symm⟩

theorem isLeast_scale {S : Set ℝ} {c r : ℝ} (hc : 0 < c) (h : IsLeast S r) : IsLeast ((fun r => c * r) '' S) (c * r) := by
  refine ⟨⟨r, h.1, rfl⟩, ?_⟩
  rintro _ ⟨s, hs, rfl⟩
  exact mul_le_mul_of_nonneg_left (h.2 hs) hc.le

/-- The value returned for skew lines is the least distance. -/
theorem isLeast_skew (hn : n ≤ 3) {p d q e : E n} (hli : LinearIndependent ℝ ![d, e]) :
    IsLeast (lineDistances p d q e)
      (|(inner ℝ (pad3 (q - p)) (crossE (pad3 d) (pad3 e)) : ℝ)| / ‖crossE (pad3 d) (pad3 e)‖) := by
  obtain ⟨-, hval, hle⟩ := closest_points hn (p := p) (q := q) hli
  rw [← hval]
  refine ⟨⟨_, ⟨_, rfl⟩, _, ⟨_, by rw [neg_smul, ← sub_eq_add_neg]⟩, rfl⟩, ?_⟩
  rintro _ ⟨x, hx, y, hy, rfl⟩
  exact hle x hx y hy

/-- C101: a line moved by a similarity: projections move along, distances scale, containment (with
`abs_tol` scaled) and the coordinates along the line follow. -/
theorem C101_line (φ : Similarity n) {p d : E n} {L : Line ℝ} (hL : Line.new (arr p) (arr d) = .ok L) :
    ∃ L' : Line ℝ, Line.new (arr (φ.pt p)) (arr (φ.vec d)) = .ok L' ∧
    (∀ x : E n,
      Corresponds φ.Moved (L.projectPoint (arr x)) (L'.projectPoint (arr (φ.pt x))) ∧
      Corresponds (fun r r' => r' = φ.c * r) (L.distancePoint (arr x)) (L'.distancePoint (arr (φ.pt x))) ∧
      (∀ tol, L'.containsPoint (tol.scale φ.c) (arr (φ.pt x)) = L.containsPoint tol (arr x))) ∧
    (∀ s : ℝ, Corresponds φ.Moved (L.toPoint s) (L'.toPoint s)) ∧
    (∀ X : List (E n), X ≠ [] → Corresponds (fun ts ts' => ts' = ts.map fun t => φ.c * t) (L.transformPoints (rows X))
      (L'.transformPoints (rows (X.map φ.pt)))) ∧
    (∀ X : List (E n), X ≠ [] → Corresponds (fun e e' => e' = φ.c ^ 2 * e) (L.sumSquares (rows X))
      (L'.sumSquares (rows (X.map φ.pt)))) := by
  obtain ⟨hn, hd, rfl⟩ := Line.new_ok hL
  refine ⟨_, Line.new_arr _ (φ.vec_ne hd), fun x => ⟨?_, ?_, fun tol => ?_⟩, fun s => ?_, fun X hX => ?_, fun X hX => ?_⟩
  · exact corresponds_moved φ (Line.projectPoint_arr _ _ _) (by rw [Line.projectPoint_arr, φ.footE_pt])
  · exact corresponds_ok (Line.distancePoint_arr _ _ _) (Line.distancePoint_arr _ _ _) (by rw [φ.footE_pt, φ.dist_pt])
  · simp only [Line.containsPoint, containsPointFn, Line.distancePoint_arr, ok_bind, φ.footE_pt, φ.dist_pt, zero_real]
    exact isclose_scale_zero φ.pos tol _
  · exact corresponds_moved φ (Line.toPoint_arr _ _ _) (by rw [Line.toPoint_arr, φ.pt_add_vec, φ.vec_smul])
  · have hX' : X.map φ.pt ≠ [] := by simpa using hX
    refine corresponds_ok (transformPoints_arr p hd hX) (transformPoints_arr _ (φ.vec_ne hd) hX') ?_
    simp only [List.map_map]
    refine List.map_congr_left fun x _ => ?_
    exact φ.psignedE_pt p d x
  · have hX' : X.map φ.pt ≠ [] := by simpa using hX
    refine corresponds_ok (Line.sumSquares_arr p d hX) (Line.sumSquares_arr _ _ hX') ?_
    rw [← List.sum_map_mul_left, List.map_map]
    congr 1
    refine List.map_congr_left fun x _ => ?_
    simp only [Function.comp_apply, φ.footE_pt, φ.dist_pt, mul_pow]

/-- C101: two lines moved by a similarity. -/
theorem C101_line_line [NumpyExt ℝ] [LawfulNumpy] (φ : Similarity n) {p d q e : E n} {L M L' M' : Line ℝ}
    (hL : Line.new (arr p) (arr d) = .ok L) (hM : Line.new (arr q) (arr e) = .ok M)
    (hL' : Line.new (arr (φ.pt p)) (arr (φ.vec d)) = .ok L') (hM' : Line.new (arr (φ.pt q)) (arr (φ.vec e)) = .ok M') :
    (∀ tol : Option ℝ, (∀ t, tol = some t → 0 ≤ t) →
      L'.isCoplanar (tol.map fun t => φ.c * t) (.line M') = L.isCoplanar tol (.line M)) ∧
    (∀ tol : Tol ℝ, tol.abs = 0 → L'.isClose tol (.line M') = L.isClose tol (.line M)) ∧
    Corresponds (fun r r' => r' = φ.c * r) (L.distanceLine M) (L'.distanceLine M') ∧
    (∀ (check : Bool) (tol : Tol ℝ), tol.abs = 0 →
      Corresponds φ.Moved (L.intersectLine M check tol) (L'.intersectLine M' check tol)) := by
  obtain ⟨hn, hd, rfl⟩ := Line.new_ok hL
  obtain ⟨-, he, rfl⟩ := Line.new_ok hM
  obtain ⟨-, -, rfl⟩ := Line.new_ok hL'
  obtain ⟨-, -, rfl⟩ := Line.new_ok hM'
  have hcop : ∀ tol : Option ℝ, (∀ t, tol = some t → 0 ≤ t) →
      Line.isCoplanar (tol.map fun t => φ.c * t) ⟨arr (φ.pt p), arr (φ.vec d)⟩ (.line ⟨arr (φ.pt q), arr (φ.vec e)⟩) =
        Line.isCoplanar tol ⟨arr p, arr d⟩ (.line ⟨arr q, arr e⟩) := by
    intro tol htol
    have := φ.affineRank_pt (P := [p, p + d, q, q + e]) (by simp) tol htol
    simp only [List.map_cons, List.map_nil, φ.pt_add_vec] at this
    simp only [Line.isCoplanar_arr, Pts.areCoplanar, this]
  refine ⟨hcop, fun tol h0 => ?_, ?_, fun check tol h0 => ?_⟩
  · simp only [Line.isClose, Line.containsPoint, containsPointFn, Line.distancePoint_arr, ok_bind, φ.footE_pt, φ.dist_pt,
      zero_real, isclose_mul_zero φ.pos h0, φ.isParallel_vec h0]
  · have hpar := φ.isParallel_vec Tol.default_abs d e
    have hc0 := hcop none (by simp)
    simp only [Option.map_none] at hc0
    simp only [Line.distanceLine, hpar, hc0]
    by_cases hnp : NearParallel d e
    · simp only [isParallel_default_arr, hnp, decide_true, ok_bind, if_true]
      exact corresponds_ok (Line.distancePoint_arr _ _ _) (Line.distancePoint_arr _ _ _) (by rw [φ.footE_pt, φ.dist_pt])
    · have hnp' : ¬ NearParallel (φ.vec d) (φ.vec e) := by rwa [φ.nearParallel_vec]
      simp only [isParallel_default_arr, hnp, decide_false, ok_bind, Bool.false_eq_true, if_false]
      rw [Line.isCoplanar_arr]
      obtain ⟨b0, b1, b2, -, -, h2, -⟩ := C22_predicates (P := [p, p + d, q, q + e]) (by simp) none (by simp)
      rw [h2, ok_bind, ok_bind]
      cases b2 with
      | true => exact corresponds_ok rfl rfl (by simp)
      | false =>
        simp only [Bool.false_eq_true, if_false]
        have hli := independent_of_not_near hnp
        have hli' := independent_of_not_near hnp'
        have h3 : 3 ≤ n := by
          by_contra hlt
          have hmeet : ∃ x, x ∈ lineSet p d ∧ x ∈ lineSet q e := by
            rw [← meet_iff, ← coplanar_iff_meet hli, coplanar_iff_finrank_le_two]
            have := Submodule.finrank_le (vectorSpan ℝ ({x | x ∈ [p, p + d, q, q + e]} : Set (E n)))
            rw [finrank_euclideanSpace_fin] at this
            omega
          have := isCoplanar_true_of_meet hli hmeet none (by simp)
          rw [Line.isCoplanar_arr, h2] at this
          simp at this
        rcases h3.lt_or_eq with hlt | rfl
        · refine corresponds_error ⟨"The desired dimension cannot be less than the current dimension.", ?_⟩
            ⟨"The desired dimension cannot be less than the current dimension.", ?_⟩
          · simp [Vec.cross, setDimension3_arr_gt _ hlt]
          · simp [Vec.cross, setDimension3_arr_gt _ hlt]
        · have h1 := isLeast_skew le_rfl (p := φ.pt p) (q := φ.pt q) hli'
          rw [φ.lineDistances_pt] at h1
          have h2 := h1.unique (isLeast_scale φ.pos (isLeast_skew le_rfl (p := p) (q := q) hli))
          simp only [pad3_self] at h2
          exact corresponds_ok (by simp) (by simp) h2
  · unfold Line.intersectLine Line.dimension
    simp only [length_arr, ne_eq, not_true_eq_false, if_false, or_self, φ.isParallel_vec h0]
    by_cases h3 : 3 < n
    · simp only [h3, gt_iff_lt, if_true]
      exact corresponds_error ⟨_, rfl⟩ ⟨_, rfl⟩
    · have hn3 : n ≤ 3 := not_lt.mp h3
      simp only [h3, gt_iff_lt, if_false]
      by_cases ht : tol.Nonneg
      · rw [isParallel_arr ht, ok_bind, ok_bind]
        by_cases hp : ParallelTol tol d e
        · simp only [hp, decide_true, if_true]
          exact corresponds_error ⟨_, rfl⟩ ⟨_, rfl⟩
        · simp only [hp, decide_false, Bool.false_eq_true, if_false]
          have hc0 := hcop none (by simp)
          simp only [Option.map_none] at hc0
          have hfin : Corresponds φ.Moved
              (Line.intersectLine ⟨arr p, arr d⟩ ⟨arr q, arr e⟩ false tol)
              (Line.intersectLine ⟨arr (φ.pt p), arr (φ.vec d)⟩ ⟨arr (φ.pt q), arr (φ.vec e)⟩ false tol) := by
            refine corresponds_moved φ (intersectLine_arr hn3 p d q e false ht hp (by simp)) ?_
            rw [intersectLine_arr hn3 _ _ _ _ false ht (by rwa [φ.parallelTol_vec h0]) (by simp), φ.meetParam_pt hn3,
              φ.pt_add_vec, φ.vec_smul]
          unfold Line.intersectLine Line.dimension at hfin
          simp only [length_arr, ne_eq, not_true_eq_false, if_false, or_self, φ.isParallel_vec h0, h3, gt_iff_lt,
            isParallel_arr ht, hp, decide_false, Bool.false_eq_true, ok_bind, pure_ok] at hfin
          cases check with
          | false => simpa only [Bool.false_eq_true, if_false, pure_ok, ok_bind] using hfin
          | true =>
            obtain ⟨b0, b1, b2, -, -, h2, -⟩ := C22_predicates (P := [p, p + d, q, q + e]) (by simp) none (by simp)
            rw [← Line.isCoplanar_arr] at h2
            simp only [if_true, hc0, h2, ok_bind, pure_ok]
            cases b2 with
            | true => simpa only [Bool.not_true, Bool.false_eq_true, if_false] using hfin
            | false =>
              simp only [Bool.not_false, if_true]
              exact corresponds_error ⟨_, rfl⟩ ⟨_, rfl⟩
      · simp only [Vec.isParallel, new1D_arr, ok_bind, Vec.isZero, dot_arr, isclose_neg ht, error_bind]
        exact corresponds_error ⟨_, rfl⟩ ⟨_, rfl⟩

end SkSpatial
