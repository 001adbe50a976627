import Verif.Props.Representation
import Verif.Props.Measures
import Verif.Props.FitSphere
/-! # C102: planes, spheres, circles, cylinders and segments -/

namespace SkSpatial
open EuclideanGeometry

variable {n : ℕ}

theorem inner_sign_rep {m : E n} (hm : m ≠ 0) {s : ℝ} : (0 < (inner ℝ m (s • m) : ℝ) ↔ 0 < s) ∧ ((inner ℝ m (s • m) : ℝ) < 0 ↔ s < 0) := by
  have h2 : 0 < ‖m‖ ^ 2 := pow_pos (norm_pos_iff.mpr hm) 2
  rw [real_inner_smul_right, real_inner_self_eq_norm_sq]
  refine ⟨mul_pos_iff_of_pos_right h2, ?_⟩
  constructor
  · intro h; by_contra hc; exact absurd h (not_lt.mpr (mul_nonneg (not_lt.mp hc) h2.le))
  · intro h; exact mul_neg_of_neg_of_pos h h2

theorem close_mul_zero_ne {k : ℝ} (hk : k ≠ 0) {tol : Tol ℝ} (h0 : tol.abs = 0) (a : ℝ) :
    Close tol (k * a) 0 ↔ Close tol a 0 := by
  rw [← close_mul_zero (abs_pos.mpr hk) h0 a]
  simp only [Close, sub_zero, abs_mul, abs_abs]

theorem psignedE_rep {p m q : E n} (h : (inner ℝ m (q - p) : ℝ) = 0) (s : ℝ) (x : E n) :
    psignedE q (s • m) x = (s / |s|) * psignedE p m x := by
  have e : (inner ℝ (x - q) m : ℝ) = inner ℝ (x - p) m := by
    rw [show x - q = (x - p) - (q - p) by abel, inner_sub_left, real_inner_comm m (q - p), h, sub_zero]
  rw [psignedE, psignedE, norm_smul, Real.norm_eq_abs, smul_smul, real_inner_smul_right, real_inner_smul_right, e, mul_inv]
  ring

/-- C102: two `Plane` objects with the same set of points: projections, distances, containment (for every tolerance)
and sums of squares agree; so do the signed distance and the side if the normals point to the same side, and
they change sign otherwise; `is_close` to any plane agrees. -/
theorem C102_plane {p m q k : E n} {P Q : Plane ℝ} (hP : Plane.new (arr p) (arr m) = .ok P)
    (hQ : Plane.new (arr q) (arr k) = .ok Q) (h : planeSet p m = planeSet q k) :
    (∀ x : E n, Q.projectPoint (arr x) = P.projectPoint (arr x) ∧ Q.distancePoint (arr x) = P.distancePoint (arr x) ∧
      (∀ tol, Q.containsPoint tol (arr x) = P.containsPoint tol (arr x)) ∧
      Q.projectVector (arr x) = P.projectVector (arr x) ∧
      ∃ (r r' : ℝ) (s s' : ℤ), P.distancePointSigned (arr x) = .ok r ∧ Q.distancePointSigned (arr x) = .ok r' ∧
        P.sidePoint (arr x) = .ok s ∧ Q.sidePoint (arr x) = .ok s' ∧
        (0 < (inner ℝ m k : ℝ) → r' = r ∧ s' = s) ∧ ((inner ℝ m k : ℝ) < 0 → r' = -r ∧ s' = -s) ∧ (inner ℝ m k : ℝ) ≠ 0) ∧
    (∀ X : List (E n), X ≠ [] → Q.projectPoints (rows X) = P.projectPoints (rows X) ∧
      Q.distancePoints (rows X) = P.distancePoints (rows X) ∧ Q.sumSquares (rows X) = P.sumSquares (rows X)) ∧
    (∀ (o f : E n) (R : Plane ℝ), Plane.new (arr o) (arr f) = .ok R → ∀ tol : Tol ℝ, tol.abs = 0 →
      Q.isClose tol (.plane R) = P.isClose tol (.plane R)) := by
  obtain ⟨hn, hm, rfl⟩ := Plane.new_ok hP
  obtain ⟨-, hk, rfl⟩ := Plane.new_ok hQ
  have hf := pfootE_rep hm hk h
  obtain ⟨s, hs, h0, rfl⟩ := planeSet_rep hm hk h
  have hcon : ∀ x : E n, ∀ tol, Plane.containsPoint tol (⟨arr q, arr (s • m)⟩ : Plane ℝ) (arr x) =
      Plane.containsPoint tol ⟨arr p, arr m⟩ (arr x) := by
    intro x tol; simp only [Plane.containsPoint, containsPointFn, Plane.distancePoint_arr _ _ hm, Plane.distancePoint_arr _ _ hk, hf]
  refine ⟨fun x => ⟨?_, ?_, hcon x, ?_, ?_⟩, fun X hX => ⟨?_, ?_, ?_⟩, fun o f R hR tol ht0 => ?_⟩
  · rw [Plane.projectPoint_arr, Plane.projectPoint_arr, hf]
  · rw [Plane.distancePoint_arr _ _ hk, Plane.distancePoint_arr _ _ hm, hf]
  · rw [Plane.projectVector_arr, Plane.projectVector_arr]
    congr 3
    rw [real_inner_smul_left, norm_smul, mul_pow, smul_smul, Real.norm_eq_abs, sq_abs]
    congr 1
    have : ‖m‖ ≠ 0 := norm_ne_zero_iff.mpr hm
    field_simp
  · have hsg : ∀ r : ℝ, intSign r = .ok (if 0 < r then 1 else if r < 0 then -1 else 0) := by
      intro r
      rcases lt_trichotomy r 0 with g | g | g
      · simp [intSign, g, not_lt.mpr g.le]
      · simp [intSign, g]
      · simp [intSign, g, not_lt.mpr g.le]
    refine ⟨psignedE p m x, psignedE q (s • m) x, _, _, Plane.distancePointSigned_arr _ _ hm, Plane.distancePointSigned_arr _ _ hk,
      by simp only [Plane.sidePoint, Plane.distancePointSigned_arr _ _ hm, ok_bind]; exact hsg _,
      by simp only [Plane.sidePoint, Plane.distancePointSigned_arr _ _ hk, ok_bind]; exact hsg _, ?_, ?_, ?_⟩
    · rw [(inner_sign_rep hm).1, psignedE_rep h0]
      intro hpos
      rw [abs_of_pos hpos, div_self hpos.ne', one_mul]
      exact ⟨rfl, rfl⟩
    · rw [(inner_sign_rep hm).2, psignedE_rep h0]
      intro hneg
      rw [abs_of_neg hneg, div_neg, div_self hneg.ne, neg_one_mul]
      refine ⟨rfl, ?_⟩
      rcases lt_trichotomy (psignedE p m x) 0 with g | g | g
      · simp [g, not_lt.mpr g.le]
      · simp [g]
      · simp [g, not_lt.mpr g.le]
    · rw [real_inner_smul_right, real_inner_self_eq_norm_sq]
      exact mul_ne_zero hs (pow_ne_zero 2 (norm_ne_zero_iff.mpr hm))
  · rw [Plane.projectPoints_arr _ hk hX, Plane.projectPoints_arr _ hm hX]
    congr 2
    exact List.map_congr_left fun x _ => hf x
  · simp only [Plane.distancePoints, Plane.distancePointsSigned_arr _ hm hX, Plane.distancePointsSigned_arr _ hk hX, ok_bind]
    simp only [List.map_map]
    congr 1
    refine List.map_congr_left fun x _ => ?_
    have e1 := dist_pfootE p hm x
    have e2 := dist_pfootE q hk x
    rw [hf] at e2
    simp only [Function.comp_apply, abs_real, ← e1, ← e2]
  · rw [Plane.sumSquares_arr _ hk hX, Plane.sumSquares_arr _ hm hX]; simp only [hf]
  · obtain ⟨-, hf', rfl⟩ := Plane.new_ok hR
    have := isParallel_smul ht0 hs one_ne_zero m f
    rw [one_smul] at this
    simp only [Plane.isClose, hcon, this]

/-- C102: a plane and a line, however they are described: `intersect_line` gives the same point or raises in both
cases; `project_line` gives the same set of points or raises in both cases. -/
theorem C102_plane_line {p m q k o d o' d' : E n} {P Q : Plane ℝ} {L L' : Line ℝ}
    (hP : Plane.new (arr p) (arr m) = .ok P) (hQ : Plane.new (arr q) (arr k) = .ok Q)
    (hL : Line.new (arr o) (arr d) = .ok L) (hL' : Line.new (arr o') (arr d') = .ok L')
    (h : planeSet p m = planeSet q k) (h2 : lineSet o d = lineSet o' d') {tol : Tol ℝ} (ht : tol.Nonneg) (h0 : tol.abs = 0) :
    Corresponds (fun x y => y = x) (P.intersectLine tol L) (Q.intersectLine tol L') ∧
    (tol.rel < 1 → Corresponds SameLine (P.projectLine tol L) (Q.projectLine tol L')) := by
  have hpp : ∀ x : E n, Q.projectPoint (arr x) = P.projectPoint (arr x) := fun x => ((C102_plane hP hQ h).1 x).1
  obtain ⟨hn, hm, -⟩ := Plane.new_ok hP
  obtain ⟨-, hk, -⟩ := Plane.new_ok hQ
  obtain ⟨-, hd, -⟩ := Line.new_ok hL
  obtain ⟨-, hd', -⟩ := Line.new_ok hL'
  obtain ⟨s, hs, -, hks⟩ := planeSet_rep hm hk h
  obtain ⟨t, r, hr, -, hdr⟩ := lineSet_rep hd' h2
  have hcl : Close tol (inner ℝ k d' : ℝ) 0 ↔ Close tol (inner ℝ m d : ℝ) 0 := by
    rw [hks, hdr, real_inner_smul_left, real_inner_smul_right, ← mul_assoc]
    exact close_mul_zero_ne (mul_ne_zero hs hr) h0 _
  have hpt : ParallelTol tol k d' ↔ ParallelTol tol m d := by rw [hks, hdr]; exact parallelTol_smul h0 hs hr m d
  constructor
  · by_cases hc : Close tol (inner ℝ m d : ℝ) 0
    · exact corresponds_error ((C38_intersect_line hP hL ht).1 hc) ((C38_intersect_line hQ hL' ht).1 (hcl.mpr hc))
    · obtain ⟨x, h1, h3⟩ := (C38_intersect_line hP hL ht).2.1 hc
      obtain ⟨y, h1', h3'⟩ := (C38_intersect_line hQ hL' ht).2.1 (fun h => hc (hcl.mp h))
      refine corresponds_ok h1 h1' ?_
      rw [(h3' x).mp (by rw [← h, ← h2]; exact (h3 x).mpr rfl)]
  · intro hrel
    by_cases hc : ParallelTol tol m d
    · exact corresponds_error ((C37_project_line hP hL ht hrel h0).1 hc) ((C37_project_line hQ hL' ht hrel h0).1 (hpt.mpr hc))
    · obtain ⟨M, x, u, h1, hM, h3⟩ := (C37_project_line hP hL ht hrel h0).2 hc
      obtain ⟨M', x', u', h1', hM', h3'⟩ := (C37_project_line hQ hL' ht hrel h0).2 (fun h => hc (hpt.mp h))
      obtain ⟨-, -, rfl⟩ := Line.new_ok hM
      obtain ⟨-, -, rfl⟩ := Line.new_ok hM'
      refine corresponds_ok h1 h1' ⟨n, x, u, x', u', rfl, rfl, ?_⟩
      rw [h3, h3']
      simp only [hpp, h2]

/-- The point of a line nearest to the origin is unique. -/
theorem minNorm_unique {x d x' d' : E n} {A : Set (E n)} (hd : d ≠ 0) (hset : lineSet x d = A) (hset' : lineSet x' d' = A)
    (hmin : ∀ y ∈ A, ‖x‖ ≤ ‖y‖) (hmin' : ∀ y ∈ A, ‖x'‖ ≤ ‖y‖) : x' = x := by
  have hx : x ∈ lineSet x d := ⟨0, by simp⟩
  have hx' : x' ∈ lineSet x d := by rw [hset, ← hset']; exact ⟨0, by simp⟩
  have key : ∀ z ∈ lineSet x d, (∀ y ∈ A, ‖z‖ ≤ ‖y‖) → z = footE x d 0 := by
    intro z hz hzm
    refine footE_unique x hd 0 z hz (le_antisymm ?_ (footE_le x hd 0 z hz))
    rw [dist_zero_left, dist_zero_left]
    exact hzm _ (hset ▸ footE_mem _ _ _)
  rw [key x hx hmin, key x' hx' hmin']

/-- C102: two planes, however they are described: `intersect_plane` gives a line through the same point with the
same set of points, or raises in both cases. -/
theorem C102_intersect_plane [NumpyExt ℝ] [LawfulNumpy] {p m q k p' m' q' k' : E 3} {P Q P' Q' : Plane ℝ}
    (hP : Plane.new (arr p) (arr m) = .ok P) (hQ : Plane.new (arr q) (arr k) = .ok Q)
    (hP' : Plane.new (arr p') (arr m') = .ok P') (hQ' : Plane.new (arr q') (arr k') = .ok Q')
    (h : planeSet p m = planeSet p' m') (h2 : planeSet q k = planeSet q' k') {tol : Tol ℝ} (ht : tol.Nonneg) (h0 : tol.abs = 0) :
    Corresponds (fun L L' => SameLine L L' ∧ L'.point = L.point) (P.intersectPlane tol Q) (P'.intersectPlane tol Q') := by
  obtain ⟨-, hm, -⟩ := Plane.new_ok hP
  obtain ⟨-, hm', -⟩ := Plane.new_ok hP'
  obtain ⟨-, hk, -⟩ := Plane.new_ok hQ
  obtain ⟨-, hk', -⟩ := Plane.new_ok hQ'
  obtain ⟨s, hs, -, hms⟩ := planeSet_rep hm hm' h
  obtain ⟨r, hr, -, hkr⟩ := planeSet_rep hk hk' h2
  have hpt : ParallelTol tol m' k' ↔ ParallelTol tol m k := by rw [hms, hkr]; exact parallelTol_smul h0 hs hr m k
  by_cases hc : ParallelTol tol m k
  · exact corresponds_error ((C39_intersect_plane hP hQ ht).1 hc) ((C39_intersect_plane hP' hQ' ht).1 (hpt.mpr hc))
  · obtain ⟨L, x, d, hL, hLn, hset, hmin⟩ := (C39_intersect_plane hP hQ ht).2 hc
    obtain ⟨L', x', d', hL', hLn', hset', hmin'⟩ := (C39_intersect_plane hP' hQ' ht).2 (fun h => hc (hpt.mp h))
    obtain ⟨-, hd, rfl⟩ := Line.new_ok hLn
    obtain ⟨-, -, rfl⟩ := Line.new_ok hLn'
    rw [← h, ← h2] at hset' hmin'
    refine corresponds_ok hL hL' ⟨⟨3, x, d, x', d', rfl, rfl, by rw [hset, hset']⟩, ?_⟩
    show arr x' = arr x
    rw [minNorm_unique hd hset hset' hmin hmin']

/-- C102: a circle or a sphere and a line, however it is described. -/
theorem C102_circle_line {c p d q e : E 2} {r : ℝ} {C : Circle ℝ} {L M : Line ℝ} (hC : Circle.new (arr c) r = .ok C)
    (hL : Line.new (arr p) (arr d) = .ok L) (hM : Line.new (arr q) (arr e) = .ok M) (h : lineSet p d = lineSet q e) :
    Corresponds (fun l l' => l' = l ∨ l' = l.swap) (C.intersectLine L) (C.intersectLine M) := by
  rcases Set.eq_empty_or_nonempty (Metric.sphere c r ∩ lineSet p d) with g | g
  · exact corresponds_error ((C45_circle_intersect_line hC hL).1 g) ((C45_circle_intersect_line hC hM).1 (h ▸ g))
  · obtain ⟨x, y, h1, h2, -⟩ := (C45_circle_intersect_line hC hL).2 g
    obtain ⟨x', y', h1', h2', -⟩ := (C45_circle_intersect_line hC hM).2 (h ▸ g)
    refine corresponds_ok h1 h1' ?_
    rw [h, h2'] at h2
    rcases pair_cases h2 with ⟨rfl, rfl⟩ | ⟨rfl, rfl⟩
    · exact .inl rfl
    · exact .inr rfl

theorem pair_rep {p d q e x y x' y' : E n} (hd : d ≠ 0) (he : e ≠ 0) (h : lineSet p d = lineSet q e)
    (hp : (x' = x ∧ y' = y) ∨ (x' = y ∧ y' = x)) {t t' : ℝ} (ht : 0 ≤ t) (ht' : 0 ≤ t') (e1 : y = x + t • d) (e2 : y' = x' + t' • e) :
    (0 < (inner ℝ d e : ℝ) → x' = x ∧ y' = y) ∧ ((inner ℝ d e : ℝ) < 0 → x' = y ∧ y' = x) := by
  obtain ⟨-, s, hs, -, rfl⟩ := lineSet_rep he h
  rw [(inner_sign_rep hd).1, (inner_sign_rep hd).2]
  constructor
  · intro hpos
    exact ordered_pair hd hp ht (mul_nonneg ht' hpos.le) e1 (by rw [e2, smul_smul])
  · intro hneg
    have e3 : x' = y' + (t' * -s) • d := by rw [e2]; module
    obtain ⟨a, b⟩ := ordered_pair hd (x := x) (y := y) (x' := y') (y' := x') (by tauto) ht (mul_nonneg ht' (by linarith)) e1 e3
    exact ⟨b, a⟩

theorem C102_sphere_line {c p d q e : E 3} {r : ℝ} {C : Sphere ℝ} {L M : Line ℝ} (hC : Sphere.new (arr c) r = .ok C)
    (hL : Line.new (arr p) (arr d) = .ok L) (hM : Line.new (arr q) (arr e) = .ok M) (h : lineSet p d = lineSet q e) :
    (inner ℝ d e : ℝ) ≠ 0 ∧
    (0 < (inner ℝ d e : ℝ) → Corresponds (fun l l' => l' = l) (C.intersectLine L) (C.intersectLine M)) ∧
    ((inner ℝ d e : ℝ) < 0 → Corresponds (fun l l' => l' = l.swap) (C.intersectLine L) (C.intersectLine M)) := by
  obtain ⟨-, hd, -⟩ := Line.new_ok hL
  obtain ⟨-, he, -⟩ := Line.new_ok hM
  have hne : (inner ℝ d e : ℝ) ≠ 0 := by
    obtain ⟨-, s, hs, -, rfl⟩ := lineSet_rep he h
    rw [real_inner_smul_right, real_inner_self_eq_norm_sq]
    exact mul_ne_zero hs (pow_ne_zero 2 (norm_ne_zero_iff.mpr hd))
  refine ⟨hne, ?_⟩
  rcases Set.eq_empty_or_nonempty (Metric.sphere c r ∩ lineSet p d) with g | g
  · have a := (C46_sphere_intersect_line hC hL).1 g
    have b := (C46_sphere_intersect_line hC hM).1 (h ▸ g)
    exact ⟨fun _ => corresponds_error a b, fun _ => corresponds_error a b⟩
  · obtain ⟨x, y, h1, h2, t, ht, h3⟩ := (C46_sphere_intersect_line hC hL).2 g
    obtain ⟨x', y', h1', h2', t', ht', h3'⟩ := (C46_sphere_intersect_line hC hM).2 (h ▸ g)
    rw [h, h2'] at h2
    obtain ⟨a, b⟩ := pair_rep hd he h (pair_cases h2) ht ht' h3 h3'
    refine ⟨fun hp => corresponds_ok h1 h1' ?_, fun hp => corresponds_ok h1 h1' ?_⟩
    · obtain ⟨rfl, rfl⟩ := a hp; rfl
    · obtain ⟨rfl, rfl⟩ := b hp; rfl

/-- C102: two `Cylinder` objects with the same solid (for instance with the base and the top exchanged). -/
theorem C102_cylinder {p a p' a' : E 3} {r r' : ℝ} {C C' : Cylinder ℝ} (hC : Cylinder.new (arr p) (arr a) r = .ok C)
    (hC' : Cylinder.new (arr p') (arr a') r' = .ok C') (h : solidCyl p a r = solidCyl p' a' r') :
    (∀ x : E 3, C'.isPointWithin (arr x) = C.isPointWithin (arr x)) ∧ C'.volume = C.volume ∧
    (∀ (q d q' d' : E 3) (L L' : Line ℝ), Line.new (arr q) (arr d) = .ok L → Line.new (arr q') (arr d') = .ok L' →
      lineSet q d = lineSet q' d' →
      Corresponds (fun l l' => l' = l ∨ l' = l.swap) (C.intersectLine L none false) (C'.intersectLine L' none false)) := by
  refine ⟨fun x => ?_, ?_, fun q d q' d' L L' hL hL' hs => ?_⟩
  · rw [C50_is_point_within hC, C50_is_point_within hC', h]
  · rw [(C49_cylinder hC).2.1, (C49_cylinder hC').2.1, h]
  · have A := C52_finite_cylinder hC hL (nd := none) (.inl rfl)
    have B := C52_finite_cylinder hC' hL' (nd := none) (.inl rfl)
    rw [← h, ← hs] at B
    rcases Set.eq_empty_or_nonempty (solidCyl p a r ∩ lineSet q d) with g | g
    · exact corresponds_error (A.1 g) (B.1 g)
    · obtain ⟨x, y, h1, h2⟩ := A.2 g
      obtain ⟨x', y', h1', h2'⟩ := B.2 g
      refine corresponds_ok h1 h1' ?_
      rw [h2] at h2'
      rcases segment_pair h2'.symm with ⟨rfl, rfl⟩ | ⟨rfl, rfl⟩
      · exact .inl rfl
      · exact .inr rfl

/-- C102: two cylinders with the same axis line and radius: the intersections with an infinite cylinder agree. -/
theorem C102_infinite_cylinder {p a p' a' q d q' d' : E 3} {r : ℝ} {C C' : Cylinder ℝ} {L L' : Line ℝ}
    (hC : Cylinder.new (arr p) (arr a) r = .ok C) (hC' : Cylinder.new (arr p') (arr a') r = .ok C')
    (hL : Line.new (arr q) (arr d) = .ok L) (hL' : Line.new (arr q') (arr d') = .ok L')
    (h : lineSet p a = lineSet p' a') (hs : lineSet q d = lineSet q' d') :
    (0 < (inner ℝ d d' : ℝ) → Corresponds (fun l l' => l' = l) (C.intersectLine L none true) (C'.intersectLine L' none true)) ∧
    ((inner ℝ d d' : ℝ) < 0 → Corresponds (fun l l' => l' = l.swap) (C.intersectLine L none true) (C'.intersectLine L' none true)) := by
  have A := C51_infinite_cylinder hC hL (nd := none) (.inl rfl)
  have B := C51_infinite_cylinder hC' hL' (nd := none) (.inl rfl)
  obtain ⟨-, hd, -⟩ := Line.new_ok hL
  obtain ⟨-, hd', -⟩ := Line.new_ok hL'
  obtain ⟨ha, -, -⟩ := Cylinder.new_ok hC
  obtain ⟨ha', -, -⟩ := Cylinder.new_ok hC'
  have hset : infCyl p' a' r = infCyl p a r := by
    obtain ⟨t, s, hs, rfl, rfl⟩ := lineSet_rep ha' h
    ext x
    constructor
    · rintro ⟨u, w, h1, h2, rfl⟩
      refine ⟨t + u * s, w, ?_, h2, by module⟩
      rw [real_inner_smul_right] at h1
      exact (mul_eq_zero.mp h1).resolve_left hs
    · rintro ⟨u, w, h1, h2, rfl⟩
      refine ⟨(u - t) / s, w, by rw [real_inner_smul_right, h1, mul_zero], h2, ?_⟩
      rw [smul_smul, div_mul_cancel₀ _ hs]; module
  have hli : LinearIndependent ℝ ![a', d'] ↔ LinearIndependent ℝ ![a, d] := by
    obtain ⟨-, s, hs1, -, rfl⟩ := lineSet_rep ha' h
    obtain ⟨-, r, hr, -, rfl⟩ := lineSet_rep hd' hs
    rw [LinearIndependent.pair_iff, LinearIndependent.pair_iff]
    constructor
    · intro H x y hxy
      have := H (x / s) (y / r) (by rw [smul_smul, smul_smul, div_mul_cancel₀ _ hs1, div_mul_cancel₀ _ hr, hxy])
      simpa [hs1, hr] using this
    · intro H x y hxy
      have := H (x * s) (y * r) (by rw [← smul_smul, ← smul_smul, hxy])
      simpa [hs1, hr] using this
  rw [hset, ← hs, hli] at B
  by_cases hind : LinearIndependent ℝ ![a, d]
  · rcases Set.eq_empty_or_nonempty (infCyl p a r ∩ lineSet q d) with g | g
    · exact ⟨fun _ => corresponds_error (A.2.1 g) (B.2.1 g), fun _ => corresponds_error (A.2.1 g) (B.2.1 g)⟩
    · obtain ⟨x, y, h1, h2, t, ht, h3⟩ := A.2.2 hind g
      obtain ⟨x', y', h1', h2', t', ht', h3'⟩ := B.2.2 hind g
      rw [h2'] at h2
      obtain ⟨a, b⟩ := pair_rep hd hd' hs (pair_cases h2) ht ht' h3 h3'
      refine ⟨fun hp => corresponds_ok h1 h1' ?_, fun hp => corresponds_ok h1 h1' ?_⟩
      · obtain ⟨rfl, rfl⟩ := a hp; rfl
      · obtain ⟨rfl, rfl⟩ := b hp; rfl
  · exact ⟨fun _ => corresponds_error (A.1 hind) (B.1 hind), fun _ => corresponds_error (A.1 hind) (B.1 hind)⟩

theorem npUnique_congr {L M : List (List ℝ)} (h : ∀ s, s ∈ L ↔ s ∈ M) : npUnique L = npUnique M := by
  have hp : (npUnique L).Perm (npUnique M) := by
    refine (List.perm_ext_iff_of_nodup ?_ ?_).mpr fun s => ?_
    · exact (sorted_npUnique L).imp fun h => ne_of_lt h
    · exact (sorted_npUnique M).imp fun h => ne_of_lt h
    · rw [mem_npUnique, mem_npUnique, h]
  exact hp.eq_of_pairwise (fun a b _ _ h1 h2 => absurd (lt_trans h1 h2) (lt_irrefl a)) (sorted_npUnique L) (sorted_npUnique M)

theorem areCoplanar_congr [NumpyExt ℝ] {P Q : List (E n)} (h : ∀ x, x ∈ P ↔ x ∈ Q) (tol : Option ℝ) :
    Pts.areCoplanar tol (rows P) = Pts.areCoplanar tol (rows Q) := by
  have : npUnique (rows P) = npUnique (rows Q) := npUnique_congr fun s => by simp only [mem_rows, h]
  simp only [Pts.areCoplanar, Pts.affineRank, Pts.unique, this]

/-- `intersect_line` of the lines through two pairs of points, with the pairs described in another order. -/
theorem intersectLine_swap [NumpyExt ℝ] [LawfulNumpy] [NeZero n] {a b c d a' b' c' d' : E n}
    (hab : (a' = a ∧ b' = b) ∨ (a' = b ∧ b' = a)) (hcd : (c' = c ∧ d' = d) ∨ (c' = d ∧ d' = c)) (check : Bool) {tol : Tol ℝ} (ht : tol.Nonneg) :
    Line.intersectLine ⟨arr a', arr (b' - a')⟩ ⟨arr c', arr (d' - c')⟩ check tol =
      Line.intersectLine ⟨arr a, arr (b - a)⟩ ⟨arr c, arr (d - c)⟩ check tol := by
  obtain ⟨t, s, hs, ha', hb'⟩ : ∃ t s : ℝ, |s| = 1 ∧ a' = a + t • (b - a) ∧ b' - a' = s • (b - a) := by
    rcases hab with ⟨rfl, rfl⟩ | ⟨rfl, rfl⟩
    · exact ⟨0, 1, by simp, by simp, by simp⟩
    · exact ⟨1, -1, by simp, by module, by module⟩
  obtain ⟨u, r, hr, hc', hd'⟩ : ∃ u r : ℝ, |r| = 1 ∧ c' = c + u • (d - c) ∧ d' - c' = r • (d - c) := by
    rcases hcd with ⟨rfl, rfl⟩ | ⟨rfl, rfl⟩
    · exact ⟨0, 1, by simp, by simp, by simp⟩
    · exact ⟨1, -1, by simp, by module, by module⟩
  have hs0 : s ≠ 0 := by rintro rfl; simp at hs
  have hr0 : r ≠ 0 := by rintro rfl; simp at hr
  have hpar' : ParallelTol tol (b' - a') (d' - c') ↔ ParallelTol tol (b - a) (d - c) := by
    rw [hb', hd', ParallelTol, ParallelTol, norm_smul, norm_smul, Real.norm_eq_abs, Real.norm_eq_abs, hs, hr, one_mul, one_mul,
      abs_cosE_smul_left hs0, cosE_comm, abs_cosE_smul_left hr0, cosE_comm]
  have hcop : Line.isCoplanar none ⟨arr a', arr (b' - a')⟩ (.line ⟨arr c', arr (d' - c')⟩) =
      Line.isCoplanar none ⟨arr a, arr (b - a)⟩ (.line ⟨arr c, arr (d - c)⟩) := by
    rw [Line.isCoplanar_arr, Line.isCoplanar_arr]
    apply areCoplanar_congr
    intro x
    simp only [add_sub_cancel, List.mem_cons, List.not_mem_nil, or_false]
    rcases hab with ⟨rfl, rfl⟩ | ⟨rfl, rfl⟩ <;> rcases hcd with ⟨rfl, rfl⟩ | ⟨rfl, rfl⟩ <;> tauto
  classical
  by_cases h3 : 3 < n
  · simp [Line.intersectLine, Line.dimension, h3]
  have hn3 : n ≤ 3 := by omega
  by_cases hpar : ParallelTol tol (b - a) (d - c)
  · simp [Line.intersectLine, Line.dimension, h3, isParallel_arr ht, hpar', hpar]
  have hli := not_dependent_of_not_parallelTol ht hpar
  have hval : a' + meetParam a' (b' - a') c' (d' - c') • (b' - a') = a + meetParam a (b - a) c (d - c) • (b - a) := by
    rw [hb', hd', ha', hc']
    exact meet_rep hn3 a c hli t u hs0 hr0
  have hpar2 : ¬ ParallelTol tol (b' - a') (d' - c') := fun h => hpar (hpar'.mp h)
  obtain ⟨b0, b1, b2, -, -, hco, -⟩ := C22_predicates (P := [a, a + (b - a), c, c + (d - c)]) (by simp) none (by simp)
  rw [← Line.isCoplanar_arr none a (b - a) c (d - c)] at hco
  by_cases hc : check = true → b2 = true
  · rw [intersectLine_arr hn3 a (b - a) c (d - c) check ht hpar (fun h => by rw [hco, hc h]),
      intersectLine_arr hn3 a' (b' - a') c' (d' - c') check ht hpar2 (fun h => by rw [hcop, hco, hc h]), hval]
  · obtain ⟨rfl, hb2⟩ : check = true ∧ b2 = false := by
      cases check <;> cases b2 <;> simp_all
    subst hb2
    simp [Line.intersectLine, Line.dimension, h3, isParallel_arr ht, hpar2, hpar, hcop, hco]

/-- C102: two `LineSegment` objects with the same set of points agree on containment for every tolerance; the
intersection of two segments does not depend on the order of their endpoints, whatever the tolerances and whether or
not coplanarity is checked. -/
theorem C102_segment {a b a' b' : E n} {S S' : LineSegment ℝ} (hS : LineSegment.new (arr a) (arr b) = .ok S)
    (hS' : LineSegment.new (arr a') (arr b') = .ok S') (h : segment ℝ a b = segment ℝ a' b') {tol : Tol ℝ} (ht : tol.Nonneg) :
    (∀ x : E n, S'.containsPoint tol (arr x) = S.containsPoint tol (arr x)) ∧
    (∀ [NumpyExt ℝ] [LawfulNumpy] (c d c' d' : E n) (R R' : LineSegment ℝ), LineSegment.new (arr c) (arr d) = .ok R →
      LineSegment.new (arr c') (arr d') = .ok R' → segment ℝ c d = segment ℝ c' d' → ∀ check : Bool,
      S'.intersectLineSegment R' check tol = S.intersectLineSegment R check tol) := by
  obtain ⟨hn, hab, rfl⟩ := LineSegment.new_ok hS
  obtain ⟨-, hab', rfl⟩ := LineSegment.new_ok hS'
  have hcon : ∀ {a b a' b' : E n} {tol : Tol ℝ}, tol.Nonneg → segment ℝ a b = segment ℝ a' b' → ∀ x : E n,
      LineSegment.containsPoint tol ⟨arr a', arr b'⟩ (arr x) = LineSegment.containsPoint tol ⟨arr a, arr b⟩ (arr x) := by
    intro a b a' b' tol ht h x
    rcases segment_pair h with ⟨rfl, rfl⟩ | ⟨rfl, rfl⟩
    · rfl
    · rw [LineSegment.containsPoint_arr _ _ _ ht, LineSegment.containsPoint_arr _ _ _ ht]
      congr 1
      rw [decide_eq_decide, cosE_comm]
      tauto
  refine ⟨hcon ht h, ?_⟩
  intro _ _ c d c' d' R R' hR hR' h2 check
  obtain ⟨-, hcd, rfl⟩ := LineSegment.new_ok hR
  obtain ⟨-, hcd', rfl⟩ := LineSegment.new_ok hR'
  rw [LineSegment.intersect_arr hab hcd, LineSegment.intersect_arr hab' hcd', intersectLine_swap (segment_pair h.symm) (segment_pair h2.symm) check ht]
  rcases intersectLine_cases a (b - a) c (d - c) check ht with ⟨msg, hm⟩ | ⟨y, hy, hm⟩
  · rw [hm]; rfl
  · rw [hm]; simp only [ok_bind, hcon Tol.default_nonneg h, hcon Tol.default_nonneg h2]

/-! ## Limits: nearly parallel lines -/

theorem nearParallel_25000 : NearParallel (vec2 1 0) (vec2 1 (1 / 25000)) := by
  have hne : ∀ s : ℝ, vec2 1 s ≠ 0 := by
    intro s h
    have := congrFun (congrArg WithLp.ofLp h) 0
    simp [vec2] at this
  right; right
  have hn0 : ‖vec2 1 0‖ = 1 := by
    rw [← Real.sqrt_sq (norm_nonneg _), norm_sq2]; simp [vec2]
  have hn1 : ‖vec2 1 (1 / 25000)‖ ≤ 1 + 9 / 10000000000 := by
    apply le_of_sq_le_sq _ (by norm_num)
    rw [norm_sq2]; norm_num [vec2]
  have hpos : 0 < ‖vec2 1 (1 / 25000)‖ := norm_pos_iff.mpr (hne _)
  rw [cosE, inner2, hn0, one_mul, abs_div, abs_norm, le_div_iff₀ hpos]
  simp only [vec2]
  norm_num
  calc (999999999 / 1000000000 : ℝ) * ‖vec2 1 (1 / 25000)‖ ≤
      999999999 / 1000000000 * (1 + 9 / 10000000000) := by
        apply mul_le_mul_of_nonneg_left _ (by norm_num)
        exact hn1
    _ ≤ 1 := by norm_num

/-- C102, defect: for nearly parallel lines the result of `distance_line` and of `is_close` depends on how the other
line is described: the same line, given by another of its points, is at distance 1 or at distance 0, and is close or
not close. -/
theorem C102_nearly_parallel_defect [NumpyExt ℝ] : ∃ (p d q q' e : E 2) (L M M' : Line ℝ), Line.new (arr p) (arr d) = .ok L ∧
    Line.new (arr q) (arr e) = .ok M ∧ Line.new (arr q') (arr e) = .ok M' ∧ lineSet q e = lineSet q' e ∧
    L.distanceLine M = .ok 1 ∧ L.distanceLine M' = .ok 0 ∧
    L.isClose Tol.default (.line M) = .ok false ∧ L.isClose Tol.default (.line M') = .ok true := by
  have hne : ∀ s : ℝ, vec2 1 s ≠ 0 := by
    intro s h
    have := congrFun (congrArg WithLp.ofLp h) 0
    simp [vec2] at this
  have hnear := nearParallel_25000
  have hL : Line.new (arr (0 : E 2)) (arr (vec2 1 0)) = .ok _ := Line.new_arr _ (hne 0)
  have hM : Line.new (arr (vec2 0 1)) (arr (vec2 1 (1 / 25000))) = .ok _ := Line.new_arr _ (hne (1 / 25000))
  have hM' : Line.new (arr (vec2 (-25000) 0)) (arr (vec2 1 (1 / 25000))) = .ok _ := Line.new_arr _ (hne (1 / 25000))
  have hin : vec2 (-25000) 0 ∈ lineSet (0 : E 2) (vec2 1 0) := ⟨-25000, by ext i; fin_cases i <;> simp [vec2]⟩
  have hout : vec2 0 1 ∉ lineSet (0 : E 2) (vec2 1 0) := by
    rintro ⟨t, ht⟩
    have := congrFun (congrArg WithLp.ofLp ht) 1
    simp [vec2] at this
  classical
  refine ⟨0, vec2 1 0, vec2 0 1, vec2 (-25000) 0, vec2 1 (1 / 25000), _, _, _, hL, hM, hM', ?_, ?_, ?_, ?_, ?_⟩
  · have e : vec2 0 1 = vec2 (-25000) 0 + (25000 : ℝ) • vec2 1 (1 / 25000) := by
      ext i; fin_cases i <;> simp [vec2]
    ext x
    constructor
    · rintro ⟨t, rfl⟩; exact ⟨25000 + t, by rw [e]; module⟩
    · rintro ⟨t, rfl⟩; exact ⟨t - 25000, by rw [e]; module⟩
  · have : footE 0 (vec2 1 0) (vec2 0 1) = 0 := by
      rw [footE, inner2]; simp [vec2]
    simp only [Line.distanceLine, isParallel_default_arr, hnear, decide_true, ok_bind, if_true,
      Line.distancePoint_arr, this]
    congr 1
    rw [dist_eq_norm, sub_zero]
    rw [← Real.sqrt_sq (norm_nonneg _), norm_sq2]; simp [vec2]
  · simp only [Line.distanceLine, isParallel_default_arr, hnear, decide_true, ok_bind, if_true,
      Line.distancePoint_arr, footE_self (hne 0) hin, dist_self]
  · rw [(C30_line_is_close hL hM).1]; simp [hout]
  · rw [(C30_line_is_close hL hM').1, decide_eq_true ⟨hin, hnear⟩]

/-! ## The hypotheses are met -/

theorem lineSet_other (p d : E n) (t : ℝ) {s : ℝ} (hs : s ≠ 0) : lineSet p d = lineSet (p + t • d) (s • d) := by
  ext x
  constructor
  · rintro ⟨u, rfl⟩
    refine ⟨(u - t) / s, ?_⟩
    rw [smul_smul, div_mul_cancel₀ _ hs]; module
  · rintro ⟨u, rfl⟩; exact ⟨t + u * s, by module⟩

theorem planeSet_other (p m w : E n) (hw : (inner ℝ m w : ℝ) = 0) {s : ℝ} (hs : s ≠ 0) : planeSet p m = planeSet (p + w) (s • m) := by
  ext x
  rw [mem_planeSet, mem_planeSet, show x - (p + w) = (x - p) - w by abel, real_inner_smul_left, inner_sub_right m (x - p) w, hw, sub_zero]
  simp [hs]

/-- The cylinder with base and top exchanged. -/
theorem solidCyl_reverse (p a : E 3) (r : ℝ) : solidCyl p a r = solidCyl (p + a) (-a) r := by
  ext x
  constructor
  · rintro ⟨t, w, h0, h1, h2, h3, rfl⟩
    exact ⟨1 - t, w, by linarith, by linarith, by rw [inner_neg_right, h2, neg_zero], h3, by module⟩
  · rintro ⟨t, w, h0, h1, h2, h3, rfl⟩
    exact ⟨1 - t, w, by linarith, by linarith, by rwa [inner_neg_right, neg_eq_zero] at h2, h3, by module⟩

theorem vec2_10_ne : vec2 1 0 ≠ 0 := by
  intro h; have := congrFun (congrArg WithLp.ofLp h) 0; simp [vec2] at this

theorem vec3_001_ne : vec3 0 0 1 ≠ 0 := by
  intro h; have := congrFun (congrArg WithLp.ofLp h) 2; simp [vec3] at this

/-- Two different descriptions of the x-axis, with opposite directions. -/
example : ∃ (p d q e : E 2) (L M : Line ℝ), Line.new (arr p) (arr d) = .ok L ∧ Line.new (arr q) (arr e) = .ok M ∧
    lineSet p d = lineSet q e ∧ (inner ℝ d e : ℝ) < 0 ∧ p ≠ q :=
  ⟨0, vec2 1 0, 0 + (3 : ℝ) • vec2 1 0, (-2 : ℝ) • vec2 1 0, _, _, Line.new_arr _ vec2_10_ne,
    Line.new_arr _ (smul_ne_zero (by norm_num) vec2_10_ne), lineSet_other _ _ 3 (by norm_num),
    (inner_sign_rep vec2_10_ne).2.mpr (by norm_num), by rw [zero_add]; exact (smul_ne_zero (by norm_num) vec2_10_ne).symm⟩

/-- Two different descriptions of the plane `z = 0`. -/
example : ∃ (p m q k : E 3) (P Q : Plane ℝ), Plane.new (arr p) (arr m) = .ok P ∧ Plane.new (arr q) (arr k) = .ok Q ∧
    planeSet p m = planeSet q k ∧ (inner ℝ m k : ℝ) < 0 :=
  ⟨0, vec3 0 0 1, 0 + vec3 5 7 0, (-2 : ℝ) • vec3 0 0 1, _, _, Plane.new_arr _ vec3_001_ne,
    Plane.new_arr _ (smul_ne_zero (by norm_num) vec3_001_ne),
    planeSet_other _ _ _ (by rw [inner3]; simp [vec3]) (by norm_num), (inner_sign_rep vec3_001_ne).2.mpr (by norm_num)⟩

/-- A cylinder and the same cylinder upside down. -/
example : ∃ (p a p' a' : E 3) (C C' : Cylinder ℝ), Cylinder.new (arr p) (arr a) 2 = .ok C ∧
    Cylinder.new (arr p') (arr a') 2 = .ok C' ∧ solidCyl p a 2 = solidCyl p' a' 2 ∧ lineSet p a = lineSet p' a' ∧ a ≠ a' :=
  ⟨0, vec3 0 0 1, 0 + vec3 0 0 1, -vec3 0 0 1, _, _, Cylinder.new_arr _ vec3_001_ne (by norm_num),
    Cylinder.new_arr _ (neg_ne_zero.mpr vec3_001_ne) (by norm_num), solidCyl_reverse _ _ _,
    by have := lineSet_other (0 : E 3) (vec3 0 0 1) 1 (s := -1) (by norm_num); simpa using this,
    fun h => by
      have := congrFun (congrArg WithLp.ofLp h) 2; simp [vec3] at this; linarith⟩

/-- A segment and its reverse. -/
example : ∃ (a b : E 2) (S S' : LineSegment ℝ), LineSegment.new (arr a) (arr b) = .ok S ∧
    LineSegment.new (arr b) (arr a) = .ok S' ∧ segment ℝ a b = segment ℝ b a := by
  have h : LineSegment.new (arr (vec2 0 0)) (arr (vec2 1 0)) = .ok _ := (C63_constructor _ _).2.1 0 (by simp [vec2]; norm_num)
  exact ⟨_, _, _, _, h, C63_symmetric h, segment_symm _ _ _⟩

end SkSpatial
