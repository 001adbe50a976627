import Verif.Props.Similarity
import Verif.Props.Plane
import Verif.Props.BestFit
import Verif.Lemmas.SimilarityRank
/-! # C101: planes, point clouds and fits -/

namespace SkSpatial
open Finset

variable {n : ℕ}

/-- C101: a plane moved by a similarity: projections move along, (signed) distances scale, the side and
containment (with `abs_tol` scaled) do not change. -/
theorem C101_plane (φ : Similarity n) {p m : E n} {P : Plane ℝ} (hP : Plane.new (arr p) (arr m) = .ok P) :
    ∃ P' : Plane ℝ, Plane.new (arr (φ.pt p)) (arr (φ.vec m)) = .ok P' ∧
    (∀ x : E n,
      Corresponds φ.Moved (P.projectPoint (arr x)) (P'.projectPoint (arr (φ.pt x))) ∧
      Corresponds (fun r r' => r' = φ.c * r) (P.distancePointSigned (arr x)) (P'.distancePointSigned (arr (φ.pt x))) ∧
      Corresponds (fun r r' => r' = φ.c * r) (P.distancePoint (arr x)) (P'.distancePoint (arr (φ.pt x))) ∧
      P'.sidePoint (arr (φ.pt x)) = P.sidePoint (arr x) ∧
      (∀ tol, P'.containsPoint (tol.scale φ.c) (arr (φ.pt x)) = P.containsPoint tol (arr x))) ∧
    (∀ v : E n, Corresponds (fun l l' => ∃ w : E n, l = arr w ∧ l' = arr (φ.vec w)) (P.projectVector (arr v))
      (P'.projectVector (arr (φ.vec v)))) ∧
    (∀ X : List (E n), X ≠ [] → Corresponds (fun e e' => e' = φ.c ^ 2 * e) (P.sumSquares (rows X))
      (P'.sumSquares (rows (X.map φ.pt)))) := by
  obtain ⟨hn, hm, rfl⟩ := Plane.new_ok hP
  have hm' := φ.vec_ne hm
  refine ⟨_, Plane.new_arr _ hm', fun x => ⟨?_, ?_, ?_, ?_, fun tol => ?_⟩, fun v => ?_, fun X hX => ?_⟩
  · exact corresponds_moved φ (Plane.projectPoint_arr _ _ _) (by rw [Plane.projectPoint_arr, φ.pfootE_pt])
  · exact corresponds_ok (Plane.distancePointSigned_arr _ _ hm) (Plane.distancePointSigned_arr _ _ hm') (φ.psignedE_pt _ _ _)
  · exact corresponds_ok (Plane.distancePoint_arr _ _ hm) (Plane.distancePoint_arr _ _ hm') (by rw [φ.pfootE_pt, φ.dist_pt])
  · simp only [Plane.sidePoint, Plane.distancePointSigned_arr _ _ hm, Plane.distancePointSigned_arr _ _ hm', ok_bind,
      φ.psignedE_pt]
    have hc := φ.pos
    simp only [intSign]
    have h1 : φ.c * psignedE p m x < 0 ↔ psignedE p m x < 0 := by
      constructor
      · intro h; by_contra h2; exact absurd h (not_lt.mpr (mul_nonneg hc.le (not_lt.mp h2)))
      · exact mul_neg_of_pos_of_neg hc
    simp [mul_pos_iff_of_pos_left hc, h1, hc.ne']
  · simp only [Plane.containsPoint, containsPointFn, Plane.distancePoint_arr _ _ hm, Plane.distancePoint_arr _ _ hm',
      ok_bind, φ.pfootE_pt, φ.dist_pt, zero_real]
    exact isclose_scale_zero φ.pos tol _
  · refine corresponds_ok (Plane.projectVector_arr _ _ _) (Plane.projectVector_arr _ _ _) ⟨_, rfl, ?_⟩
    rw [φ.quot_vec, φ.vec_sub, φ.vec_smul]
  · have hX' : X.map φ.pt ≠ [] := by simpa using hX
    refine corresponds_ok (Plane.sumSquares_arr p hm hX) (Plane.sumSquares_arr _ hm' hX') ?_
    rw [← List.sum_map_mul_left, List.map_map]
    congr 1
    refine List.map_congr_left fun x _ => ?_
    simp only [Function.comp_apply, φ.pfootE_pt, φ.dist_pt, mul_pow]

/-- C101: a plane and a line moved by a similarity. -/
theorem C101_plane_line (φ : Similarity n) {p m q d : E n} {P P' : Plane ℝ} {L L' : Line ℝ}
    (hP : Plane.new (arr p) (arr m) = .ok P) (hL : Line.new (arr q) (arr d) = .ok L)
    (hP' : Plane.new (arr (φ.pt p)) (arr (φ.vec m)) = .ok P') (hL' : Line.new (arr (φ.pt q)) (arr (φ.vec d)) = .ok L')
    {tol : Tol ℝ} (ht : tol.Nonneg) (h0 : tol.abs = 0) :
    Corresponds φ.Moved (P.intersectLine tol L) (P'.intersectLine tol L') ∧
    Corresponds φ.MovedLine (P.projectLine tol L) (P'.projectLine tol L') := by
  obtain ⟨hn, hm, rfl⟩ := Plane.new_ok hP
  obtain ⟨-, hd, rfl⟩ := Line.new_ok hL
  obtain ⟨-, hm', rfl⟩ := Plane.new_ok hP'
  obtain ⟨-, hd', rfl⟩ := Line.new_ok hL'
  have hperp := φ.isPerpendicular_vec h0 m d
  have hpar := φ.isParallel_vec h0 m d
  have hcl : Close tol (inner ℝ (φ.vec m) (φ.vec d) : ℝ) 0 ↔ Close tol (inner ℝ m d : ℝ) 0 := by
    rw [φ.inner_vec]; exact close_mul_zero (pow_pos φ.pos 2) h0 _
  constructor
  · by_cases h : Close tol (inner ℝ m d : ℝ) 0
    · exact corresponds_error ((C38_intersect_line hP hL ht).1 h) ((C38_intersect_line hP' hL' ht).1 (hcl.mpr h))
    · refine corresponds_moved φ (x := q + (-(inner ℝ m (q - p) : ℝ) / inner ℝ m d) • d) ?_ ?_
      · simp [Plane.intersectLine, isPerpendicular_arr ht, h]
      · have e : -(inner ℝ (φ.vec m) (φ.pt q - φ.pt p) : ℝ) / inner ℝ (φ.vec m) (φ.vec d) =
            -(inner ℝ m (q - p) : ℝ) / inner ℝ m d := by
          rw [φ.pt_sub, φ.inner_vec, φ.inner_vec, ← mul_neg, mul_div_mul_left _ _ (pow_ne_zero 2 φ.ne)]
        rw [φ.pt_add_vec, φ.vec_smul, ← e]
        simp [Plane.intersectLine, isPerpendicular_arr ht, hcl, h]
  · by_cases h : ParallelTol tol m d
    · exact corresponds_error ((C37_project_line_tolerance hP hL ht).1 h)
        ((C37_project_line_tolerance hP' hL' ht).1 ((φ.parallelTol_vec h0 m d).mpr h))
    · have h' : ¬ ParallelTol tol (φ.vec m) (φ.vec d) := by rwa [φ.parallelTol_vec h0]
      have hli := not_dependent_of_not_parallelTol ht h
      have hd2 : d - (inner ℝ m d / ‖m‖ ^ 2) • m ≠ 0 := by
        intro h0
        rw [LinearIndependent.pair_iff] at hli
        have := (hli (-(inner ℝ m d / ‖m‖ ^ 2)) 1 (by rw [one_smul, neg_smul, neg_add_eq_sub, h0])).2
        norm_num at this
      have hv : φ.vec d - (inner ℝ (φ.vec m) (φ.vec d) / ‖φ.vec m‖ ^ 2) • φ.vec m =
          φ.vec (d - (inner ℝ m d / ‖m‖ ^ 2) • m) := by
        rw [φ.quot_vec, φ.vec_sub, φ.vec_smul]
      by_cases hc : Close tol (inner ℝ m d : ℝ) 0
      · refine corresponds_ok (x := ⟨arr (pfootE p m q), arr d⟩) (y := ⟨arr (φ.pt (pfootE p m q)), arr (φ.vec d)⟩) ?_ ?_
          ⟨_, _, rfl, rfl⟩
        · simp [Plane.projectLine, isParallel_arr ht, h, isPerpendicular_arr ht, hc, Line.new_arr _ hd]
        · simp [Plane.projectLine, isParallel_arr ht, h', isPerpendicular_arr ht, hcl, hc, Line.new_arr _ hd', φ.pfootE_pt]
      · refine corresponds_ok (x := ⟨arr (pfootE p m q), arr (d - (inner ℝ m d / ‖m‖ ^ 2) • m)⟩)
          (y := ⟨arr (φ.pt (pfootE p m q)), arr (φ.vec (d - (inner ℝ m d / ‖m‖ ^ 2) • m))⟩) ?_ ?_ ⟨_, _, rfl, rfl⟩
        · simp [Plane.projectLine, isParallel_arr ht, h, isPerpendicular_arr ht, hc, Plane.projectVector_arr,
            Line.new_arr _ hd2]
        · simp [-Similarity.norm_vec, Plane.projectLine, isParallel_arr ht, h', isPerpendicular_arr ht, hcl, hc, Plane.projectVector_arr, hv,
            Line.new_arr _ (φ.vec_ne hd2), φ.pfootE_pt]

/-- C101: two planes moved by a similarity. -/
theorem C101_plane_plane [NumpyExt ℝ] [LawfulNumpy] (φ : Similarity 3) {p m q k : E 3} {P P' Q Q' : Plane ℝ}
    (hP : Plane.new (arr p) (arr m) = .ok P) (hQ : Plane.new (arr q) (arr k) = .ok Q)
    (hP' : Plane.new (arr (φ.pt p)) (arr (φ.vec m)) = .ok P') (hQ' : Plane.new (arr (φ.pt q)) (arr (φ.vec k)) = .ok Q')
    {tol : Tol ℝ} (ht : tol.Nonneg) (h0 : tol.abs = 0) :
    Corresponds φ.MovedLineSet (P.intersectPlane tol Q) (P'.intersectPlane tol Q') ∧
    P'.isClose tol (.plane Q') = P.isClose tol (.plane Q) := by
  constructor
  · by_cases h : ParallelTol tol m k
    · exact corresponds_error ((C39_intersect_plane hP hQ ht).1 h)
        ((C39_intersect_plane hP' hQ' ht).1 ((φ.parallelTol_vec h0 m k).mpr h))
    · obtain ⟨L, x, d, hL, hLn, hs, -⟩ := (C39_intersect_plane hP hQ ht).2 h
      obtain ⟨L', x', d', hL', hLn', hs', -⟩ := (C39_intersect_plane hP' hQ' ht).2 (by rwa [φ.parallelTol_vec h0])
      obtain ⟨-, -, rfl⟩ := Line.new_ok hLn
      obtain ⟨-, -, rfl⟩ := Line.new_ok hLn'
      refine corresponds_ok hL hL' ⟨x, d, x', d', rfl, rfl, ?_⟩
      rw [hs, hs', φ.planeSet_eq, φ.planeSet_eq, Set.image_inter φ.pt_injective]
  · obtain ⟨-, hm, rfl⟩ := Plane.new_ok hP
    obtain ⟨-, hk, rfl⟩ := Plane.new_ok hQ
    obtain ⟨-, hm', rfl⟩ := Plane.new_ok hP'
    obtain ⟨-, hk', rfl⟩ := Plane.new_ok hQ'
    simp only [Plane.isClose, Plane.containsPoint, containsPointFn, Plane.distancePoint_arr _ _ hm,
      Plane.distancePoint_arr _ _ hm', ok_bind, φ.pfootE_pt, φ.dist_pt, zero_real, isclose_mul_zero φ.pos h0,
      φ.isParallel_vec h0]

theorem Similarity.centroidE_pt (φ : Similarity n) {X : List (E n)} (hX : X ≠ []) :
    centroidE (X.map φ.pt) = φ.pt (centroidE X) := by
  have hl : (X.length : ℝ) ≠ 0 := by exact_mod_cast (List.length_pos_iff.mpr hX).ne'
  have hs : (X.map φ.pt).sum = φ.c • φ.U X.sum + (X.length : ℝ) • φ.t := by
    clear hX hl
    induction X with
    | nil => simp
    | cons x X ih =>
      simp only [List.map_cons, List.sum_cons, ih, List.length_cons, Similarity.pt, map_add, smul_add, Nat.cast_succ,
        add_smul, one_smul]
      abel
  rw [centroidE, centroidE, List.length_map, hs, Similarity.pt, smul_add, smul_smul _ (X.length : ℝ), inv_mul_cancel₀ hl,
    one_smul, map_smul, smul_comm]

/-- C101: centroid and rank of a point cloud moved by a similarity. -/
theorem C101_points [NumpyExt ℝ] [LawfulNumpy] [NeZero n] (φ : Similarity n) {X : List (E n)} (hX : X ≠ []) (tol : Option ℝ)
    (htol : ∀ t, tol = some t → 0 ≤ t) :
    Corresponds φ.Moved (Pts.centroid (rows X)) (Pts.centroid (rows (X.map φ.pt))) ∧
    Pts.affineRank (tol.map fun t => φ.c * t) (rows (X.map φ.pt)) = Pts.affineRank tol (rows X) ∧
    Pts.areConcurrent (tol.map fun t => φ.c * t) (rows (X.map φ.pt)) = Pts.areConcurrent tol (rows X) ∧
    Pts.areCollinear (tol.map fun t => φ.c * t) (rows (X.map φ.pt)) = Pts.areCollinear tol (rows X) ∧
    Pts.areCoplanar (tol.map fun t => φ.c * t) (rows (X.map φ.pt)) = Pts.areCoplanar tol (rows X) := by
  have hX' : X.map φ.pt ≠ [] := by simpa using hX
  have hr := φ.affineRank_pt hX tol htol
  refine ⟨?_, hr, ?_, ?_, ?_⟩
  · refine corresponds_moved φ (centroid_rows hX) ?_
    rw [centroid_rows hX', φ.centroidE_pt hX]
  · simp only [Pts.areConcurrent, hr]
  · simp only [Pts.areCollinear, hr]
  · simp only [Pts.areCoplanar, hr]

/-- C101: fitting a line to a point cloud moved by a similarity: the line passes through the moved centroid
and the error scales with the area factor. -/
theorem C101_line_best_fit [NumpyExt ℝ] [LawfulNumpy] [NeZero n] (φ : Similarity n) {X : List (E n)} (hX : X ≠ [])
    (tol : Option ℝ) (htol : ∀ t, tol = some t → 0 ≤ t) (full : Bool) :
    Corresponds (fun r r' : Line ℝ × ℝ => φ.Moved r.1.point r'.1.point ∧ r'.2 = φ.c ^ 2 * r.2)
      (Line.bestFit (rows X) tol full) (Line.bestFit (rows (X.map φ.pt)) (tol.map fun t => φ.c * t) full) := by
  have hX' : X.map φ.pt ≠ [] := by simpa using hX
  have htol' : ∀ t, (tol.map fun t => φ.c * t) = some t → 0 ≤ t := by
    intro t h
    cases tol with
    | none => simp at h
    | some a => simp at h; rw [← h]; exact mul_nonneg φ.pos.le (htol a rfl)
  obtain ⟨hcen, -, hconc, -⟩ := C101_points φ hX tol htol
  obtain ⟨b0, -, -, hb, -⟩ := C22_predicates hX tol htol
  have hB := C31_line_best_fit hX tol htol full
  have hB' := C31_line_best_fit hX' _ htol' full
  cases b0 with
  | true => exact corresponds_error (hB.1 hb) (hB'.1 (by rw [hconc, hb]))
  | false =>
    obtain ⟨L, err, o, u, h1, h2, h3, h4, h5, h6⟩ := hB.2.2 hb
    obtain ⟨L', err', o', u', h1', h2', h3', h4', h5', h6'⟩ := hB'.2.2 (by rw [hconc, hb])
    refine corresponds_ok h1 h1' ⟨?_, ?_⟩
    · obtain ⟨-, -, rfl⟩ := Line.new_ok h2
      obtain ⟨-, -, rfl⟩ := Line.new_ok h2'
      rw [centroid_rows hX'] at h3'
      rw [centroid_rows hX] at h3
      refine ⟨o, rfl, ?_⟩
      rw [← Except.ok.inj h3', ← arr_injective (Except.ok.inj h3), φ.centroidE_pt hX]
    · apply le_antisymm
      · -- the moved optimal line is a competitor
        obtain ⟨M, hM, -, -, -, hsq⟩ := C101_line φ h2
        rcases hsq X hX with ⟨a, a', ha, ha', e⟩ | ⟨⟨_, ha⟩, -⟩
        · rw [h5] at ha
          cases ha
          have := h6' _ _ M _ hM ha'
          rwa [e] at this
        · rw [h5] at ha; cases ha
      · -- moving the other optimal line back gives a competitor
        obtain ⟨x, hx⟩ := φ.pt_surjective o'
        obtain ⟨y, hy⟩ := φ.pt_surjective (o' + u')
        have hv : φ.vec (y - x) = u' := by rw [← φ.pt_sub, hx, hy]; abel
        have hu' : u' ≠ 0 := by intro h; rw [h] at h4'; simp at h4'
        have hyx : y - x ≠ 0 := by intro h; rw [h, φ.vec_zero] at hv; exact hu' hv.symm
        have hM := Line.new_arr x hyx
        obtain ⟨M', hM', -, -, -, hsq⟩ := C101_line φ hM
        rw [hx, hv, h2'] at hM'
        cases hM'
        rcases hsq X hX with ⟨a, a', ha, ha', e⟩ | ⟨-, ⟨_, ha⟩⟩
        · rw [h5'] at ha'
          cases ha'
          rw [e]
          exact mul_le_mul_of_nonneg_left (h6 _ _ _ _ hM ha) (sq_nonneg _)
        · rw [h5'] at ha; cases ha

/-- C101: fitting a plane to a point cloud moved by a similarity: the plane passes through the moved centroid
and the error scales with the area factor. -/
theorem C101_plane_best_fit [NumpyExt ℝ] [LawfulNumpy] (φ : Similarity 3) {X : List (E 3)} (hX : X ≠ [])
    (tol : Option ℝ) (htol : ∀ t, tol = some t → 0 ≤ t) (full : Bool) :
    Corresponds (fun r r' : Plane ℝ × ℝ => φ.Moved r.1.point r'.1.point ∧ r'.2 = φ.c ^ 2 * r.2)
      (Plane.bestFit (rows X) tol full) (Plane.bestFit (rows (X.map φ.pt)) (tol.map fun t => φ.c * t) full) := by
  have hX' : X.map φ.pt ≠ [] := by simpa using hX
  have htol' : ∀ t, (tol.map fun t => φ.c * t) = some t → 0 ≤ t := by
    intro t h
    cases tol with
    | none => simp at h
    | some a => simp at h; rw [← h]; exact mul_nonneg φ.pos.le (htol a rfl)
  obtain ⟨hcen, -, -, hcol, -⟩ := C101_points φ hX tol htol
  obtain ⟨-, b1, -, -, hb, -⟩ := C22_predicates hX tol htol
  have hB := C40_plane_best_fit hX tol htol full
  have hB' := C40_plane_best_fit hX' _ htol' full
  cases b1 with
  | true => exact corresponds_error (hB.1 hb) (hB'.1 (by rw [hcol, hb]))
  | false =>
    obtain ⟨L, err, o, u, h1, h2, h3, h4, h5, h6⟩ := hB.2.2 hb
    obtain ⟨L', err', o', u', h1', h2', h3', h4', h5', h6'⟩ := hB'.2.2 (by rw [hcol, hb])
    refine corresponds_ok h1 h1' ⟨?_, ?_⟩
    · obtain ⟨-, -, rfl⟩ := Plane.new_ok h2
      obtain ⟨-, -, rfl⟩ := Plane.new_ok h2'
      rw [centroid_rows hX'] at h3'
      rw [centroid_rows hX] at h3
      refine ⟨o, rfl, ?_⟩
      rw [← Except.ok.inj h3', ← arr_injective (Except.ok.inj h3), φ.centroidE_pt hX]
    · apply le_antisymm
      · obtain ⟨M, hM, -, -, hsq⟩ := C101_plane φ h2
        rcases hsq X hX with ⟨a, a', ha, ha', e⟩ | ⟨⟨_, ha⟩, -⟩
        · rw [h5] at ha
          cases ha
          have := h6' _ _ M _ hM ha'
          rwa [e] at this
        · rw [h5] at ha; cases ha
      · obtain ⟨x, hx⟩ := φ.pt_surjective o'
        obtain ⟨y, hy⟩ := φ.pt_surjective (o' + u')
        have hv : φ.vec (y - x) = u' := by rw [← φ.pt_sub, hx, hy]; abel
        have hu' : u' ≠ 0 := by intro h; rw [h] at h4'; simp at h4'
        have hyx : y - x ≠ 0 := by intro h; rw [h, φ.vec_zero] at hv; exact hu' hv.symm
        have hM := Plane.new_arr x hyx
        obtain ⟨M', hM', -, -, hsq⟩ := C101_plane φ hM
        rw [hx, hv, h2'] at hM'
        cases hM'
        rcases hsq X hX with ⟨a, a', ha, ha', e⟩ | ⟨-, ⟨_, ha⟩⟩
        · rw [h5'] at ha'
          cases ha'
          rw [e]
          exact mul_le_mul_of_nonneg_left (h6 _ _ _ _ hM ha) (sq_nonneg _)
        · rw [h5'] at ha; cases ha


end SkSpatial
