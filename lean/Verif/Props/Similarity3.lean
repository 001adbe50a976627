import Verif.Props.Similarity2
import Verif.Props.Circle
import Verif.Props.Circle2
import Verif.Props.Cylinder
import Verif.Props.AreaSigned
import Verif.Props.Altitude
import Verif.Props.LineSegment
/-! # C101: circles, spheres, cylinders, triangles and segments -/

namespace SkSpatial
open Finset EuclideanGeometry

variable {n : ℕ}

/-! ## Pairs of points -/

theorem pair_cases {α : Type} {x y x' y' : α} (h : ({x', y'} : Set α) = {x, y}) :
    (x' = x ∧ y' = y) ∨ (x' = y ∧ y' = x) := Set.pair_eq_pair_iff.mp h

theorem Similarity.movedPair_of_image (φ : Similarity n) {x y x' y' : E n} {A : Set (E n)} (h : A = {x, y})
    (h' : φ.pt '' A = {x', y'}) : (x' = φ.pt x ∧ y' = φ.pt y) ∨ (x' = φ.pt y ∧ y' = φ.pt x) := by
  rw [h, Set.image_pair] at h'
  exact pair_cases h'.symm

/-- Two pairs that agree up to order and are both ordered along the same direction agree. -/
theorem ordered_pair {d x y x' y' : E n} (hd : d ≠ 0) (h : (x' = x ∧ y' = y) ∨ (x' = y ∧ y' = x)) {t t' : ℝ} (ht : 0 ≤ t)
    (ht' : 0 ≤ t') (e : y = x + t • d) (e' : y' = x' + t' • d) : x' = x ∧ y' = y := by
  rcases h with h | ⟨rfl, rfl⟩
  · exact h
  · have h0 : (t + t') • d = 0 := by
      have : x' = x' + (t' + t) • d := by
        nth_rewrite 1 [e, e']; module
      rw [add_comm t, ← left_eq_add (a := x'), ← this]
    rcases smul_eq_zero.mp h0 with h0 | h0
    · have : t = 0 := by linarith
      rw [this, zero_smul, add_zero] at e
      exact ⟨e, e.symm⟩
    · exact absurd h0 hd

theorem segment_pair {x y x' y' : E n} (h : segment ℝ x' y' = segment ℝ x y) :
    (x' = x ∧ y' = y) ∨ (x' = y ∧ y' = x) := by
  have hx : x ∈ segment ℝ x' y' := h ▸ left_mem_segment ℝ x y
  have hy : y ∈ segment ℝ x' y' := h ▸ right_mem_segment ℝ x y
  have hx' : x' ∈ segment ℝ x y := h ▸ left_mem_segment ℝ x' y'
  have hy' : y' ∈ segment ℝ x y := h ▸ right_mem_segment ℝ x' y'
  rw [segment_eq_image'] at hx hy hx' hy'
  obtain ⟨s, ⟨hs0, hs1⟩, hs⟩ := hx
  obtain ⟨t, ⟨ht0, ht1⟩, ht⟩ := hy
  obtain ⟨u, ⟨hu0, hu1⟩, hu⟩ := hx'
  obtain ⟨w, ⟨hw0, hw1⟩, hw⟩ := hy'
  by_cases hv : y' - x' = 0
  · have hyx : y' = x' := sub_eq_zero.mp hv
    simp only [hv, smul_zero, add_zero] at hs ht
    left; exact ⟨hs, by rw [hyx, ht]⟩
  · simp only at hs ht hu hw
    rw [← hs, ← ht] at hu hw
    have h1 : (s + u * (t - s)) • (y' - x') = 0 := by
      have : x' + s • (y' - x') + u • (x' + t • (y' - x') - (x' + s • (y' - x'))) - x' = (s + u * (t - s)) • (y' - x') := by
        module
      rw [← this, hu, sub_self]
    have h2 : (s + w * (t - s) - 1) • (y' - x') = 0 := by
      have : x' + s • (y' - x') + w • (x' + t • (y' - x') - (x' + s • (y' - x'))) - y' = (s + w * (t - s) - 1) • (y' - x') := by
        module
      rw [← this, hw, sub_self]
    have h1 := (smul_eq_zero.mp h1).resolve_right hv
    have h2 := (smul_eq_zero.mp h2).resolve_right hv
    have hA : s * (1 - u) = 0 := by
      have := mul_nonneg hs0 (sub_nonneg.mpr hu1); have := mul_nonneg hu0 ht0; nlinarith
    have hB : u * t = 0 := by nlinarith
    rcases mul_eq_zero.mp hA with h0 | h0
    · have : t = 1 := by subst h0; nlinarith
      subst h0 this
      left; constructor
      · rw [← hs, zero_smul, add_zero]
      · rw [← ht, one_smul]; abel
    · have hu' : u = 1 := by linarith
      subst hu'
      have ht0' : t = 0 := by linarith
      subst ht0'
      have : s = 1 := by nlinarith
      subst this
      right; constructor
      · rw [← ht, zero_smul, add_zero]
      · rw [← hs, one_smul]; abel

/-! ## Circles and spheres -/

theorem Similarity.sphere_foot (φ : Similarity n) (o x : E n) (r : ℝ) :
    φ.pt o + (φ.c * r / ‖φ.pt x - φ.pt o‖) • (φ.pt x - φ.pt o) = φ.pt (o + (r / ‖x - o‖) • (x - o)) := by
  rw [φ.pt_add_vec, φ.vec_smul, φ.pt_sub, φ.norm_vec, mul_div_mul_left _ _ φ.ne]

theorem Similarity.baseProject (φ : Similarity n) [NeZero n] (o x : E n) (r : ℝ) :
    Corresponds φ.Moved (baseProjectPoint (arr o) r (arr x)) (baseProjectPoint (arr (φ.pt o)) (φ.c * r) (arr (φ.pt x))) := by
  by_cases h : x = o
  · subst h
    exact corresponds_error (baseProjectPoint_center _ _) (baseProjectPoint_center _ _)
  · refine corresponds_moved φ (baseProjectPoint_arr o r h) ?_
    rw [baseProjectPoint_arr _ _ (fun h' => h (φ.pt_injective h')), φ.sphere_foot]

theorem Similarity.baseDistance (φ : Similarity n) [NeZero n] (o x : E n) (r : ℝ) :
    baseDistancePoint (arr o) r (arr x) = .ok |dist o x - r| ∧
    baseDistancePoint (arr (φ.pt o)) (φ.c * r) (arr (φ.pt x)) = .ok (φ.c * |dist o x - r|) := by
  constructor
  · simp [baseDistancePoint, distancePoint_arr]
  · simp only [baseDistancePoint, distancePoint_arr, ok_bind, φ.dist_pt, pure_ok, sub_real, abs_real]
    rw [← mul_sub, abs_mul, abs_of_pos φ.pos]

/-- C101: a circle moved by a similarity: projections and common points move along, lengths scale by `c`, areas by `c²`. -/
theorem C101_circle (φ : Similarity 2) {o : E 2} {r : ℝ} {C : Circle ℝ} (hC : Circle.new (arr o) r = .ok C) :
    ∃ C' : Circle ℝ, Circle.new (arr (φ.pt o)) (φ.c * r) = .ok C' ∧
    (∀ x : E 2,
      Corresponds φ.Moved (C.projectPoint (arr x)) (C'.projectPoint (arr (φ.pt x))) ∧
      Corresponds (fun d d' => d' = φ.c * d) (C.distancePoint (arr x)) (C'.distancePoint (arr (φ.pt x))) ∧
      (∀ tol, C'.containsPoint (tol.scale φ.c) (arr (φ.pt x)) = C.containsPoint tol (arr x))) ∧
    C'.circumference = φ.c * C.circumference ∧ C'.area = φ.c ^ 2 * C.area ∧
    (∀ (p d : E 2) (L L' : Line ℝ), Line.new (arr p) (arr d) = .ok L → Line.new (arr (φ.pt p)) (arr (φ.vec d)) = .ok L' →
      Corresponds φ.MovedPair (C.intersectLine L) (C'.intersectLine L')) ∧
    (∀ (q : E 2) (s : ℝ) (D D' : Circle ℝ), Circle.new (arr q) s = .ok D → Circle.new (arr (φ.pt q)) (φ.c * s) = .ok D' →
      Corresponds φ.MovedPair (C.intersectCircle D) (C'.intersectCircle D')) := by
  obtain ⟨hr, rfl⟩ := Circle.new_ok hC
  have hC' := Circle.new_arr (φ.pt o) (mul_pos φ.pos hr)
  refine ⟨_, hC', fun x => ⟨φ.baseProject o x r, corresponds_ok (φ.baseDistance o x r).1 (φ.baseDistance o x r).2 rfl,
    fun tol => ?_⟩, ?_, ?_, fun p d L L' hL hL' => ?_, fun q s D D' hD hD' => ?_⟩
  · simp only [Circle.containsPoint, containsPointFn, Circle.distancePoint, (φ.baseDistance o x r).1,
      (φ.baseDistance o x r).2, ok_bind, zero_real]
    exact isclose_scale_zero φ.pos tol _
  · simp [Circle.circumference]; ring
  · simp [Circle.area]; ring
  · have hi : φ.pt '' (Metric.sphere o r ∩ lineSet p d) = Metric.sphere (φ.pt o) (φ.c * r) ∩ lineSet (φ.pt p) (φ.vec d) := by
      rw [Set.image_inter φ.pt_injective, φ.sphere_eq, φ.lineSet_eq]
    rcases Set.eq_empty_or_nonempty (Metric.sphere o r ∩ lineSet p d) with h | h
    · exact corresponds_error ((C45_circle_intersect_line hC hL).1 h) ((C45_circle_intersect_line hC' hL').1 (by
        rw [← hi, h, Set.image_empty]))
    · obtain ⟨x, y, h1, h2, -⟩ := (C45_circle_intersect_line hC hL).2 h
      obtain ⟨x', y', h1', h2', -⟩ := (C45_circle_intersect_line hC' hL').2 (by rw [← hi]; exact h.image _)
      refine corresponds_ok h1 h1' ⟨x, y, rfl, ?_⟩
      rcases φ.movedPair_of_image h2 (hi.trans h2') with ⟨rfl, rfl⟩ | ⟨rfl, rfl⟩
      · exact .inl rfl
      · exact .inr rfl
  · have hi : φ.pt '' (Metric.sphere o r ∩ Metric.sphere q s) =
        Metric.sphere (φ.pt o) (φ.c * r) ∩ Metric.sphere (φ.pt q) (φ.c * s) := by
      rw [Set.image_inter φ.pt_injective, φ.sphere_eq, φ.sphere_eq]
    by_cases hoq : o = q
    · exact corresponds_error ((C44_intersect_circle hC hD).1 (.inl hoq)) ((C44_intersect_circle hC' hD').1 (.inl (by rw [hoq])))
    rcases Set.eq_empty_or_nonempty (Metric.sphere o r ∩ Metric.sphere q s) with h | h
    · exact corresponds_error ((C44_intersect_circle hC hD).1 (.inr h)) ((C44_intersect_circle hC' hD').1 (.inr (by
        rw [← hi, h, Set.image_empty])))
    · obtain ⟨x, y, h1, h2, -⟩ := (C44_intersect_circle hC hD).2 hoq h
      obtain ⟨x', y', h1', h2', -⟩ := (C44_intersect_circle hC' hD').2 (fun e => hoq (φ.pt_injective e))
        (by rw [← hi]; exact h.image _)
      refine corresponds_ok h1 h1' ⟨x, y, rfl, ?_⟩
      rcases φ.movedPair_of_image h2 (hi.trans h2') with ⟨rfl, rfl⟩ | ⟨rfl, rfl⟩
      · exact .inl rfl
      · exact .inr rfl

/-- C101: the circle through three points moves along. -/
theorem C101_circle_from_points [NumpyExt ℝ] [LawfulNumpy] (φ : Similarity 2) (a b c : E 2) (tol : Option ℝ)
    (htol : ∀ t, tol = some t → 0 ≤ t) :
    Corresponds (fun C C' : Circle ℝ => φ.Moved C.point C'.point ∧ C'.radius = φ.c * C.radius)
      (Circle.fromPoints tol (arr a) (arr b) (arr c))
      (Circle.fromPoints (tol.map fun t => φ.c * t) (arr (φ.pt a)) (arr (φ.pt b)) (arr (φ.pt c))) := by
  have htol' : ∀ t, (tol.map fun t => φ.c * t) = some t → 0 ≤ t := by
    intro t h
    cases tol with
    | none => simp at h
    | some a => simp at h; rw [← h]; exact mul_nonneg φ.pos.le (htol a rfl)
  obtain ⟨-, -, -, hcol, -⟩ := C101_points φ (X := [a, b, c]) (by simp) tol htol
  obtain ⟨-, b1, -, -, hb, -⟩ := C22_predicates (P := [a, b, c]) (by simp) tol htol
  have hF := C43_from_points a b c tol htol
  have hF' := C43_from_points (φ.pt a) (φ.pt b) (φ.pt c) _ htol'
  simp only [List.map_cons, List.map_nil] at hcol
  cases b1 with
  | true => exact corresponds_error (hF.1 hb) (hF'.1 (by rw [hcol, hb]))
  | false =>
    obtain ⟨C, o, r, h1, h2, ha, hb', hc, -⟩ := hF.2.2 hb
    obtain ⟨C', o', r', h1', h2', -, -, -, hu⟩ := hF'.2.2 (by rw [hcol, hb])
    obtain ⟨-, rfl⟩ := Circle.new_ok h2
    obtain ⟨-, rfl⟩ := Circle.new_ok h2'
    refine corresponds_ok h1 h1' ?_
    obtain ⟨e1, e2⟩ := hu (φ.pt o) (φ.c * r) (by rw [φ.sphere_eq]; exact ⟨a, ha, rfl⟩)
      (by rw [φ.sphere_eq]; exact ⟨b, hb', rfl⟩) (by rw [φ.sphere_eq]; exact ⟨c, hc, rfl⟩)
    exact ⟨⟨o, rfl, by rw [e1]⟩, e2.symm⟩

/-- C101: a sphere moved by a similarity; the common points with a line keep their order. -/
theorem C101_sphere (φ : Similarity 3) {o : E 3} {r : ℝ} {C : Sphere ℝ} (hC : Sphere.new (arr o) r = .ok C) :
    ∃ C' : Sphere ℝ, Sphere.new (arr (φ.pt o)) (φ.c * r) = .ok C' ∧
    (∀ x : E 3,
      Corresponds φ.Moved (C.projectPoint (arr x)) (C'.projectPoint (arr (φ.pt x))) ∧
      Corresponds (fun d d' => d' = φ.c * d) (C.distancePoint (arr x)) (C'.distancePoint (arr (φ.pt x))) ∧
      (∀ tol, C'.containsPoint (tol.scale φ.c) (arr (φ.pt x)) = C.containsPoint tol (arr x))) ∧
    C'.surfaceArea = φ.c ^ 2 * C.surfaceArea ∧ C'.volume = φ.c ^ 3 * C.volume ∧
    (∀ (p d : E 3) (L L' : Line ℝ), Line.new (arr p) (arr d) = .ok L → Line.new (arr (φ.pt p)) (arr (φ.vec d)) = .ok L' →
      Corresponds (fun l l' => φ.Moved l.1 l'.1 ∧ φ.Moved l.2 l'.2) (C.intersectLine L) (C'.intersectLine L')) := by
  obtain ⟨hr, rfl⟩ := Sphere.new_ok hC
  have hC' := Sphere.new_arr (φ.pt o) (mul_pos φ.pos hr)
  refine ⟨_, hC', fun x => ⟨φ.baseProject o x r, corresponds_ok (φ.baseDistance o x r).1 (φ.baseDistance o x r).2 rfl,
    fun tol => ?_⟩, ?_, ?_, fun p d L L' hL hL' => ?_⟩
  · simp only [Sphere.containsPoint, containsPointFn, Sphere.distancePoint, (φ.baseDistance o x r).1,
      (φ.baseDistance o x r).2, ok_bind, zero_real]
    exact isclose_scale_zero φ.pos tol _
  · simp [Sphere.surfaceArea]; ring
  · simp [Sphere.volume, cube]; ring
  · have hi : φ.pt '' (Metric.sphere o r ∩ lineSet p d) = Metric.sphere (φ.pt o) (φ.c * r) ∩ lineSet (φ.pt p) (φ.vec d) := by
      rw [Set.image_inter φ.pt_injective, φ.sphere_eq, φ.lineSet_eq]
    rcases Set.eq_empty_or_nonempty (Metric.sphere o r ∩ lineSet p d) with h | h
    · exact corresponds_error ((C46_sphere_intersect_line hC hL).1 h) ((C46_sphere_intersect_line hC' hL').1 (by
        rw [← hi, h, Set.image_empty]))
    · obtain ⟨x, y, h1, h2, t, ht, h3⟩ := (C46_sphere_intersect_line hC hL).2 h
      obtain ⟨x', y', h1', h2', t', ht', h3'⟩ := (C46_sphere_intersect_line hC' hL').2 (by rw [← hi]; exact h.image _)
      obtain ⟨-, hd, -⟩ := Line.new_ok hL'
      obtain ⟨rfl, rfl⟩ := ordered_pair hd (φ.movedPair_of_image h2 (hi.trans h2')) ht ht'
        (by rw [h3, φ.pt_add_vec, φ.vec_smul]) h3'
      exact corresponds_ok h1 h1' ⟨⟨x, rfl, rfl⟩, y, rfl, rfl⟩

/-! ## Cylinders -/

theorem Similarity.vec_surjective (φ : Similarity n) (w : E n) : ∃ v, φ.vec v = w := by
  obtain ⟨x, hx⟩ := φ.pt_surjective (φ.pt 0 + w)
  refine ⟨x, ?_⟩
  have := φ.pt_sub x 0
  rw [sub_zero] at this
  rw [← this, hx]; abel

theorem Similarity.cyl_point (φ : Similarity 3) (p a w : E 3) (t : ℝ) :
    φ.pt (p + t • a + w) = φ.pt p + t • φ.vec a + φ.vec w := by
  rw [φ.pt_add_vec, φ.pt_add_vec, φ.vec_smul]

theorem Similarity.solidCyl_eq (φ : Similarity 3) (p a : E 3) (r : ℝ) :
    solidCyl (φ.pt p) (φ.vec a) (φ.c * r) = φ.pt '' solidCyl p a r := by
  ext y
  simp only [solidCyl, Set.mem_setOf_eq, Set.mem_image]
  constructor
  · rintro ⟨t, w, h0, h1, h2, h3, rfl⟩
    obtain ⟨v, rfl⟩ := φ.vec_surjective w
    refine ⟨p + t • a + v, ⟨t, v, h0, h1, ?_, ?_, rfl⟩, φ.cyl_point _ _ _ _⟩
    · rw [φ.inner_vec] at h2
      exact (mul_eq_zero.mp h2).resolve_left (pow_ne_zero 2 φ.ne)
    · rw [φ.norm_vec] at h3; exact le_of_mul_le_mul_left h3 φ.pos
  · rintro ⟨x, ⟨t, w, h0, h1, h2, h3, rfl⟩, rfl⟩
    refine ⟨t, φ.vec w, h0, h1, by rw [φ.inner_vec, h2, mul_zero], ?_, φ.cyl_point _ _ _ _⟩
    rw [φ.norm_vec]; exact mul_le_mul_of_nonneg_left h3 φ.pos.le

theorem Similarity.infCyl_eq (φ : Similarity 3) (p a : E 3) (r : ℝ) :
    infCyl (φ.pt p) (φ.vec a) (φ.c * r) = φ.pt '' infCyl p a r := by
  ext y
  simp only [infCyl, Set.mem_setOf_eq, Set.mem_image]
  constructor
  · rintro ⟨t, w, h2, h3, rfl⟩
    obtain ⟨v, rfl⟩ := φ.vec_surjective w
    refine ⟨p + t • a + v, ⟨t, v, ?_, ?_, rfl⟩, φ.cyl_point _ _ _ _⟩
    · rw [φ.inner_vec] at h2
      exact (mul_eq_zero.mp h2).resolve_left (pow_ne_zero 2 φ.ne)
    · rw [φ.norm_vec] at h3; exact mul_left_cancel₀ φ.ne h3
  · rintro ⟨x, ⟨t, w, h2, h3, rfl⟩, rfl⟩
    exact ⟨t, φ.vec w, by rw [φ.inner_vec, h2, mul_zero], by rw [φ.norm_vec, h3], φ.cyl_point _ _ _ _⟩

theorem Similarity.independent (φ : Similarity n) (u v : E n) :
    LinearIndependent ℝ ![φ.vec u, φ.vec v] ↔ LinearIndependent ℝ ![u, v] := by
  simp only [LinearIndependent.pair_iff, ← φ.vec_smul, ← φ.vec_add, φ.vec_eq_zero]

theorem Similarity.segment_image (φ : Similarity n) (x y : E n) :
    φ.pt '' segment ℝ x y = segment ℝ (φ.pt x) (φ.pt y) := by
  rw [segment_eq_image', segment_eq_image', Set.image_image]
  refine Set.image_congr fun t _ => ?_
  rw [φ.pt_add_vec, φ.vec_smul, φ.pt_sub]

/-- C101: a cylinder moved by a similarity. -/
theorem C101_cylinder (φ : Similarity 3) {p a : E 3} {r : ℝ} {C : Cylinder ℝ} (hC : Cylinder.new (arr p) (arr a) r = .ok C) :
    ∃ C' : Cylinder ℝ, Cylinder.new (arr (φ.pt p)) (arr (φ.vec a)) (φ.c * r) = .ok C' ∧
    (∀ x : E 3, C'.isPointWithin (arr (φ.pt x)) = C.isPointWithin (arr x)) ∧
    C'.length = φ.c * C.length ∧ C'.lateralSurfaceArea = φ.c ^ 2 * C.lateralSurfaceArea ∧
    C'.surfaceArea = φ.c ^ 2 * C.surfaceArea ∧ C'.volume = φ.c ^ 3 * C.volume ∧
    (∀ (q d : E 3) (L L' : Line ℝ), Line.new (arr q) (arr d) = .ok L → Line.new (arr (φ.pt q)) (arr (φ.vec d)) = .ok L' →
      Corresponds (fun l l' => φ.Moved l.1 l'.1 ∧ φ.Moved l.2 l'.2) (C.intersectLine L none true) (C'.intersectLine L' none true) ∧
      Corresponds φ.MovedPair (C.intersectLine L none false) (C'.intersectLine L' none false)) := by
  obtain ⟨ha, hr, rfl⟩ := Cylinder.new_ok hC
  have hC' := Cylinder.new_arr (φ.pt p) (φ.vec_ne ha) (mul_pos φ.pos hr)
  refine ⟨_, hC', fun x => ?_, ?_, ?_, ?_, ?_, fun q d L L' hL hL' => ⟨?_, ?_⟩⟩
  · classical
    rw [C50_is_point_within hC, C50_is_point_within hC', φ.solidCyl_eq]
    congr 1
    rw [decide_eq_decide]
    exact φ.pt_injective.mem_set_image
  · simp [Cylinder.length]
  · simp [Cylinder.lateralSurfaceArea, Cylinder.length]; ring
  · simp [Cylinder.surfaceArea, Cylinder.lateralSurfaceArea, Cylinder.length]; ring
  · simp [Cylinder.volume, Cylinder.length]; ring
  · have hi : φ.pt '' (infCyl p a r ∩ lineSet q d) = infCyl (φ.pt p) (φ.vec a) (φ.c * r) ∩ lineSet (φ.pt q) (φ.vec d) := by
      rw [Set.image_inter φ.pt_injective, φ.infCyl_eq, φ.lineSet_eq]
    have A := C51_infinite_cylinder hC hL (nd := none) (.inl rfl)
    have B := C51_infinite_cylinder hC' hL' (nd := none) (.inl rfl)
    by_cases hli : LinearIndependent ℝ ![a, d]
    · rcases Set.eq_empty_or_nonempty (infCyl p a r ∩ lineSet q d) with h | h
      · exact corresponds_error (A.2.1 h) (B.2.1 (by rw [← hi, h, Set.image_empty]))
      · obtain ⟨x, y, h1, h2, t, ht, h3⟩ := A.2.2 hli h
        obtain ⟨x', y', h1', h2', t', ht', h3'⟩ := B.2.2 ((φ.independent a d).mpr hli) (by rw [← hi]; exact h.image _)
        obtain ⟨-, hd, -⟩ := Line.new_ok hL'
        obtain ⟨rfl, rfl⟩ := ordered_pair hd (φ.movedPair_of_image h2 (hi.trans h2')) ht ht'
          (by rw [h3, φ.pt_add_vec, φ.vec_smul]) h3'
        exact corresponds_ok h1 h1' ⟨⟨x, rfl, rfl⟩, y, rfl, rfl⟩
    · exact corresponds_error (A.1 hli) (B.1 fun h => hli ((φ.independent a d).mp h))
  · have hi : φ.pt '' (solidCyl p a r ∩ lineSet q d) = solidCyl (φ.pt p) (φ.vec a) (φ.c * r) ∩ lineSet (φ.pt q) (φ.vec d) := by
      rw [Set.image_inter φ.pt_injective, φ.solidCyl_eq, φ.lineSet_eq]
    have A := C52_finite_cylinder hC hL (nd := none) (.inl rfl)
    have B := C52_finite_cylinder hC' hL' (nd := none) (.inl rfl)
    rcases Set.eq_empty_or_nonempty (solidCyl p a r ∩ lineSet q d) with h | h
    · exact corresponds_error (A.1 h) (B.1 (by rw [← hi, h, Set.image_empty]))
    · obtain ⟨x, y, h1, h2⟩ := A.2 h
      obtain ⟨x', y', h1', h2'⟩ := B.2 (by rw [← hi]; exact h.image _)
      refine corresponds_ok h1 h1' ⟨x, y, rfl, ?_⟩
      rw [← hi, h2, φ.segment_image] at h2'
      rcases segment_pair h2'.symm with ⟨rfl, rfl⟩ | ⟨rfl, rfl⟩
      · exact .inl rfl
      · exact .inr rfl

/-! ## Triangles, segments, areas and volumes -/

theorem Similarity.cross_norm (φ : Similarity n) (hn : n ≤ 3) (u v : E n) :
    ‖crossE (pad3 (φ.vec u)) (pad3 (φ.vec v))‖ = φ.c ^ 2 * ‖crossE (pad3 u) (pad3 v)‖ := by
  refine (pow_left_inj₀ (norm_nonneg _) (mul_nonneg (sq_nonneg _) (norm_nonneg _)) two_ne_zero).mp ?_
  rw [mul_pow, crossE_norm_sq, crossE_norm_sq, norm_pad3 hn, norm_pad3 hn, norm_pad3 hn, norm_pad3 hn, inner_pad3 hn,
    inner_pad3 hn, φ.inner_vec, φ.norm_vec, φ.norm_vec]
  ring

/-- C101: the free measurement functions: areas scale by `c²`, volumes by `c³`, and the signed area changes
sign under reflections. -/
theorem C101_measurement (φ : Similarity n) [NeZero n] (hn : n ≤ 3) (a b c : E n) :
    Corresponds (fun s s' => s' = φ.c ^ 2 * s) (Measurement.areaTriangle (arr a) (arr b) (arr c))
      (Measurement.areaTriangle (arr (φ.pt a)) (arr (φ.pt b)) (arr (φ.pt c))) := by
  refine corresponds_ok (areaTriangle_arr hn a b c) (areaTriangle_arr hn _ _ _) ?_
  rw [φ.pt_sub, φ.pt_sub, φ.cross_norm hn]; ring

/-- C101: the volume of a tetrahedron in space. -/
theorem C101_volume (φ : Similarity 3) (a b c d : E 3) :
    Corresponds (fun s s' => s' = φ.c ^ 3 * s) (Measurement.volumeTetrahedron (arr a) (arr b) (arr c) (arr d))
      (Measurement.volumeTetrahedron (arr (φ.pt a)) (arr (φ.pt b)) (arr (φ.pt c)) (arr (φ.pt d))) := by
  have key : ∀ a b c d : E 3, Measurement.volumeTetrahedron (arr a) (arr b) (arr c) (arr d) =
      .ok (1 / 6 * |(inner ℝ (b - a) (crossE (c - a) (d - a)) : ℝ)|) := by
    intro a b c d
    simp [Measurement.volumeTetrahedron, setDimension3_arr _ (le_refl 3)]
  refine corresponds_ok (key _ _ _ _) (key _ _ _ _) ?_
  rw [φ.pt_sub, φ.pt_sub, φ.pt_sub, φ.crossE_vec, real_inner_smul_right, φ.inner_vec, abs_mul, abs_mul, abs_mul,
    abs_of_pos φ.pos, abs_of_pos (pow_pos φ.pos 2)]
  have : |φ.orient| = 1 := by rcases φ.orient_eq with h | h <;> simp [h]
  rw [this]; ring

/-- C101: the signed area of a polygon. -/
theorem C101_area_signed (φ : Similarity 2) {P : List (E 2)} (h : 3 ≤ P.length) :
    Corresponds (fun s s' => s' = φ.orient * φ.c ^ 2 * s) (Measurement.areaSigned (rows P))
      (Measurement.areaSigned (rows (P.map φ.pt))) := by
  obtain ⟨s, hs, -, -, hf, -⟩ := C67_area_signed_laws h
  have h1 := hf (φ.c • (φ.U.toLinearEquiv : E 2 →ₗ[ℝ] E 2)) φ.t
  refine corresponds_ok hs (y := LinearMap.det (φ.c • (φ.U.toLinearEquiv : E 2 →ₗ[ℝ] E 2)) * s) h1 ?_
  rw [LinearMap.det_smul]
  rw [Similarity.orient, show Module.finrank ℝ (E 2) = 2 by simp]
  ring

/-- C101: which side of a line a point lies on. -/
theorem C101_side_point (φ : Similarity 2) {p d : E 2} {L L' : Line ℝ} (hL : Line.new (arr p) (arr d) = .ok L)
    (hL' : Line.new (arr (φ.pt p)) (arr (φ.vec d)) = .ok L') (x : E 2) :
    Corresponds (fun s s' : ℤ => (s' : ℝ) = φ.orient * s) (L.sidePoint (arr x)) (L'.sidePoint (arr (φ.pt x))) := by
  obtain ⟨-, -, rfl⟩ := Line.new_ok hL
  obtain ⟨-, -, rfl⟩ := Line.new_ok hL'
  simp only [Line.sidePoint, fromPoints_arr, ok_bind, φ.pt_sub]
  exact (C101_orientation2 φ d (x - p)).1

theorem sort3_scale {k : ℝ} (hk : 0 < k) (x y z : ℝ) : Triangle.sort3 (k * x) (k * y) (k * z) =
    (k * (Triangle.sort3 x y z).1, k * (Triangle.sort3 x y z).2.1, k * (Triangle.sort3 x y z).2.2) := by
  rw [sort3_eq, sort3_eq]
  simp only [← mul_min_of_nonneg _ _ hk.le, ← mul_max_of_nonneg _ _ hk.le]
  refine Prod.ext rfl (Prod.ext ?_ rfl)
  simp only; ring

theorem Similarity.angle_pt (φ : Similarity n) (a b c : E n) : ∠ (φ.pt a) (φ.pt b) (φ.pt c) = ∠ a b c := by
  simp only [EuclideanGeometry.angle, InnerProductGeometry.angle, vsub_eq_sub, φ.pt_sub, φ.inner_vec, φ.norm_vec]
  congr 1
  rw [show φ.c * ‖a - b‖ * (φ.c * ‖c - b‖) = φ.c ^ 2 * (‖a - b‖ * ‖c - b‖) by ring,
    mul_div_mul_left _ _ (pow_ne_zero 2 φ.ne)]

/-- C101: a triangle moved by a similarity. -/
theorem C101_triangle [NumpyExt ℝ] [LawfulNumpy] (φ : Similarity n) {a b c : E n} {T : Triangle ℝ}
    (h : Triangle.new (arr a) (arr b) (arr c) = .ok T) :
    ∃ T' : Triangle ℝ, Triangle.new (arr (φ.pt a)) (arr (φ.pt b)) (arr (φ.pt c)) = .ok T' ∧
    Corresponds (fun s s' => s' = φ.c * s) T.perimeter T'.perimeter ∧
    Corresponds (fun s s' => s' = φ.c ^ 2 * s) T.area T'.area ∧
    (∀ v, T'.angle v = T.angle v) ∧
    (∀ v, Corresponds φ.Moved (T.point v) (T'.point v)) ∧
    (∀ s, Corresponds φ.MovedLine (T.line s) (T'.line s)) ∧
    (∀ s, Corresponds (fun l l' => l' = φ.c * l) (T.length s) (T'.length s)) ∧
    (∀ v, Corresponds φ.MovedLine (T.altitude v) (T'.altitude v)) ∧
    Corresponds φ.Moved T.centroid T'.centroid ∧
    (∀ tol, T'.classify (tol.scale φ.c) = T.classify tol) ∧
    (∀ tol, T'.isRight (tol.scale (φ.c ^ 2)) = T.isRight tol) ∧
    (∀ (check : Bool) (tol : Tol ℝ), tol.abs = 0 → Corresponds φ.Moved (T.orthocenter check tol) (T'.orthocenter check tol)) := by
  obtain ⟨hn, hcol, rfl⟩ := Triangle.new_ok h
  obtain ⟨-, -, hnc, hab, hbc, hac⟩ := Triangle.facts h
  have hab' : φ.pt a ≠ φ.pt b := φ.pt_injective.ne hab
  have hbc' : φ.pt b ≠ φ.pt c := φ.pt_injective.ne hbc
  have hac' : φ.pt a ≠ φ.pt c := φ.pt_injective.ne hac
  obtain ⟨-, -, -, hc2, -⟩ := C101_points φ (X := [a, b, c]) (by simp) none (by simp)
  have hT' := Triangle.new_arr (a := φ.pt a) (b := φ.pt b) (c := φ.pt c) (by rw [← hcol]; exact hc2)
  obtain ⟨-, -, hnc', -⟩ := Triangle.facts hT'
  have hlen := Triangle.lengths_arr hab hbc hac
  have hlen' := Triangle.lengths_arr hab' hbc' hac'
  rw [φ.dist_pt, φ.dist_pt, φ.dist_pt] at hlen'
  have hline : ∀ s, Corresponds φ.MovedLine (Triangle.line (⟨arr a, arr b, arr c⟩ : Triangle ℝ) s)
      (Triangle.line (⟨arr (φ.pt a), arr (φ.pt b), arr (φ.pt c)⟩ : Triangle ℝ) s) := by
    intro s
    simp only [Triangle.line]
    split_ifs
    · exact corresponds_ok (fromPoints_line hbc) (fromPoints_line hbc') ⟨_, _, rfl, by rw [φ.pt_sub]⟩
    · exact corresponds_ok (fromPoints_line hac.symm) (fromPoints_line hac'.symm) ⟨_, _, rfl, by rw [φ.pt_sub]⟩
    · exact corresponds_ok (fromPoints_line hab) (fromPoints_line hab') ⟨_, _, rfl, by rw [φ.pt_sub]⟩
    · exact corresponds_error ⟨_, rfl⟩ ⟨_, rfl⟩
  have halt : ∀ v, Corresponds φ.MovedLine (Triangle.altitude (⟨arr a, arr b, arr c⟩ : Triangle ℝ) v)
      (Triangle.altitude (⟨arr (φ.pt a), arr (φ.pt b), arr (φ.pt c)⟩ : Triangle ℝ) v) := by
    intro v
    have key : ∀ a b c : E n, ¬ Collinear ℝ ({a, b, c} : Set (E n)) →
        ¬ Collinear ℝ ({φ.pt a, φ.pt b, φ.pt c} : Set (E n)) →
        Corresponds φ.MovedLine (Line.fromPoints (arr b) (arr c) >>= fun l => Line.projectPoint l (arr a) >>= fun q =>
          Line.fromPoints (arr a) q) (Line.fromPoints (arr (φ.pt b)) (arr (φ.pt c)) >>= fun l =>
          Line.projectPoint l (arr (φ.pt a)) >>= fun q => Line.fromPoints (arr (φ.pt a)) q) := by
      intro a b c h h'
      refine corresponds_ok (Triangle.altitude_arr h) (Triangle.altitude_arr h') ⟨_, _, rfl, ?_⟩
      rw [φ.pt_sub, φ.footE_pt, φ.pt_sub]
    have p1 : ∀ a b c : E n, ({b, c, a} : Set (E n)) = {a, b, c} := fun a b c => by
      rw [Set.insert_comm, Set.pair_comm, Set.insert_comm, Set.pair_comm, Set.insert_comm, Set.pair_comm]
    have p2 : ∀ a b c : E n, ({c, a, b} : Set (E n)) = {a, b, c} := fun a b c => by rw [p1, p1]
    simp only [Triangle.altitude]
    split_ifs
    · simpa [Triangle.line] using key a b c hnc hnc'
    · simpa [Triangle.line] using key b c a (by rwa [p1]) (by rwa [p1])
    · simpa [Triangle.line] using key c a b (by rwa [p2]) (by rwa [p2])
    · exact corresponds_error ⟨_, rfl⟩ ⟨_, rfl⟩
  refine ⟨_, hT', ?_, ?_, fun v => ?_, fun v => ?_, hline, fun s => ?_, halt, ?_, fun tol => ?_, fun tol => ?_, fun check tol h0 => ?_⟩
  · simp only [Triangle.perimeter, hlen, hlen', ok_bind, pure_ok, sumL_real]
    refine corresponds_ok rfl rfl ?_
    simp; ring
  · by_cases hn3 : n ≤ 3
    · simp only [Triangle.area, Triangle.normal, fromPoints_arr, ok_bind, cross_arr hn3 hn3, pure_ok]
      refine corresponds_ok rfl rfl ?_
      simp only [norm_arr, φ.pt_sub, φ.cross_norm hn3, mul_real, half_real]
      ring
    · exact corresponds_error (C56_area_dimension (by omega) h).2 (C56_area_dimension (by omega) hT').2
  · have q : ∀ x y z : ℝ, ((φ.c * x) ^ 2 + (φ.c * y) ^ 2 - (φ.c * z) ^ 2) / (2 * (φ.c * x) * (φ.c * y)) =
        (x ^ 2 + y ^ 2 - z ^ 2) / (2 * x * y) := by
      intro x y z
      rw [← mul_div_mul_left (x ^ 2 + y ^ 2 - z ^ 2) _ (pow_ne_zero 2 φ.ne)]
      congr 1 <;> ring
    simp only [Triangle.angle, hlen, hlen', ok_bind, sq_real, add_real, sub_real, mul_real, div_real, two_real, q]
  · simp only [Triangle.point]
    split_ifs
    · exact corresponds_moved φ rfl rfl
    · exact corresponds_moved φ rfl rfl
    · exact corresponds_moved φ rfl rfl
    · exact corresponds_error ⟨_, rfl⟩ ⟨_, rfl⟩
  · rcases hline s with ⟨x, y, h1, h2, p, d, rfl, rfl⟩ | ⟨⟨m, h1⟩, m', h2⟩
    · refine corresponds_ok (x := ‖d‖) (y := φ.c * ‖d‖) ?_ ?_ rfl
      · simp [Triangle.length, h1]
      · simp [Triangle.length, h2]
    · exact corresponds_error ⟨m, by simp [Triangle.length, h1]⟩ ⟨m', by simp [Triangle.length, h2]⟩
  · have h1 := newPoints_rows (P := [a, b, c]) (by simp)
    have h2 := newPoints_rows (P := [φ.pt a, φ.pt b, φ.pt c]) (by simp)
    have h3 := (C101_points φ (X := [a, b, c]) (by simp) none (by simp)).1
    simp only [rows, List.map_cons, List.map_nil] at h1 h2 h3
    simpa [Triangle.centroid, h1, h2] using h3
  · simp only [Triangle.classify, hlen, hlen', ok_bind, isclose_scale φ.pos]
  · simp only [Triangle.isRight, hlen, hlen', ok_bind, sort3_scale φ.pos]
    obtain ⟨⟨x, y, z⟩, hs⟩ : ∃ s, s = Triangle.sort3 (dist b c) (dist c a) (dist a b) := ⟨_, rfl⟩
    rw [← hs]
    simp only [sq_real, add_real, mul_pow, ← mul_add, isclose_scale (pow_pos φ.pos 2)]
  · rcases halt "A" with ⟨LA, LA', h1, h2, p, d, rfl, rfl⟩ | ⟨⟨m, h1⟩, m', h2⟩
    · rcases halt "B" with ⟨LB, LB', h3, h4, q, e, rfl, rfl⟩ | ⟨⟨m, h3⟩, m', h4⟩
      · have hd : d ≠ 0 := by
          obtain ⟨dA, dB, -, h5, h6, -, h7, h8, -⟩ := C59_altitude h
          rw [h1, Line.new_arr _ h5] at h7
          have := Except.ok.inj h7
          rw [Line.mk.injEq, arr_inj, arr_inj] at this
          rw [this.2]; exact h5
        have he : e ≠ 0 := by
          obtain ⟨dA, dB, -, h5, h6, -, h7, h8, -⟩ := C59_altitude h
          rw [h3, Line.new_arr _ h6] at h8
          have := Except.ok.inj h8
          rw [Line.mk.injEq, arr_inj, arr_inj] at this
          rw [this.2]; exact h6
        simp only [Triangle.orthocenter, h1, h2, h3, h4, ok_bind]
        exact (C101_line_line φ (Line.new_arr p hd) (Line.new_arr q he) (Line.new_arr _ (φ.vec_ne hd))
          (Line.new_arr _ (φ.vec_ne he))).2.2.2 check tol h0
      · exact corresponds_error ⟨m, by simp [Triangle.orthocenter, h1, h3]⟩ ⟨m', by simp [Triangle.orthocenter, h2, h4]⟩
    · exact corresponds_error ⟨m, by simp [Triangle.orthocenter, h1]⟩ ⟨m', by simp [Triangle.orthocenter, h2]⟩

/-- C101: whether three points are accepted as a triangle. -/
theorem C101_triangle_constructor [NumpyExt ℝ] [LawfulNumpy] [NeZero n] (φ : Similarity n) (a b c : E n) :
    Corresponds (fun T T' : Triangle ℝ => φ.Moved T.pointA T'.pointA ∧ φ.Moved T.pointB T'.pointB ∧ φ.Moved T.pointC T'.pointC)
      (Triangle.new (arr a) (arr b) (arr c)) (Triangle.new (arr (φ.pt a)) (arr (φ.pt b)) (arr (φ.pt c))) := by
  obtain ⟨-, -, -, hcol, -⟩ := C101_points φ (X := [a, b, c]) (by simp) none (by simp)
  obtain ⟨-, b1, -, -, hb, -⟩ := C22_predicates (P := [a, b, c]) (by simp) none (by simp)
  cases b1 with
  | true =>
    have key : ∀ a b c : E n, Pts.areCollinear none (rows [a, b, c]) = .ok true →
        ∃ msg, Triangle.new (arr a) (arr b) (arr c) = .error (.valueError msg) := by
      intro a b c h
      have hp := newPoints_rows (P := [a, b, c]) (by simp)
      simp only [rows, List.map_cons, List.map_nil] at hp h
      exact ⟨_, by simp [Triangle.new, hp, h]; rfl⟩
    exact corresponds_error (key _ _ _ hb) (key _ _ _ (by rw [← hb]; exact hcol))
  | false =>
    exact corresponds_ok (Triangle.new_arr hb) (Triangle.new_arr (by rw [← hb]; exact hcol))
      ⟨⟨_, rfl, rfl⟩, ⟨_, rfl, rfl⟩, _, rfl, rfl⟩

/-- C101: segments moved by a similarity. -/
theorem C101_segment [NumpyExt ℝ] [LawfulNumpy] (φ : Similarity n) {a b : E n} {S S' : LineSegment ℝ}
    (hS : LineSegment.new (arr a) (arr b) = .ok S) (hS' : LineSegment.new (arr (φ.pt a)) (arr (φ.pt b)) = .ok S') :
    (∀ (x : E n) (tol : Tol ℝ), tol.Nonneg → tol.abs = 0 → S'.containsPoint tol (arr (φ.pt x)) = S.containsPoint tol (arr x)) ∧
    (∀ (c d : E n) (R R' : LineSegment ℝ), LineSegment.new (arr c) (arr d) = .ok R →
      LineSegment.new (arr (φ.pt c)) (arr (φ.pt d)) = .ok R' → ∀ (check : Bool) (tol : Tol ℝ), tol.Nonneg → tol.abs = 0 →
      Corresponds φ.Moved (S.intersectLineSegment R check tol) (S'.intersectLineSegment R' check tol)) := by
  obtain ⟨hn, hab, rfl⟩ := LineSegment.new_ok hS
  obtain ⟨-, hab', rfl⟩ := LineSegment.new_ok hS'
  have hcon : ∀ (a b x : E n) (tol : Tol ℝ), tol.Nonneg → tol.abs = 0 →
      LineSegment.containsPoint tol ⟨arr (φ.pt a), arr (φ.pt b)⟩ (arr (φ.pt x)) =
        LineSegment.containsPoint tol ⟨arr a, arr b⟩ (arr x) := by
    intro a b x tol ht h0
    rw [LineSegment.containsPoint_arr _ _ _ ht, LineSegment.containsPoint_arr _ _ _ ht]
    congr 1
    rw [decide_eq_decide]
    simp only [φ.pt_sub, φ.norm_vec, mul_pow, φ.cosE_vec, close_mul_zero (pow_pos φ.pos 2) h0]
  refine ⟨hcon a b, fun c d R R' hR hR' check tol ht h0 => ?_⟩
  obtain ⟨-, hcd, rfl⟩ := LineSegment.new_ok hR
  obtain ⟨-, hcd', rfl⟩ := LineSegment.new_ok hR'
  rw [LineSegment.intersect_arr hab hcd, LineSegment.intersect_arr hab' hcd', φ.pt_sub, φ.pt_sub]
  have hd : b - a ≠ 0 := sub_ne_zero.mpr hab.symm
  have he : d - c ≠ 0 := sub_ne_zero.mpr hcd.symm
  rcases (C101_line_line φ (Line.new_arr a hd) (Line.new_arr c he) (Line.new_arr _ (φ.vec_ne hd))
    (Line.new_arr _ (φ.vec_ne he))).2.2.2 check tol h0 with ⟨_, _, h1, h2, y, rfl, rfl⟩ | ⟨⟨m, h1⟩, m', h2⟩
  · rw [h1, h2]
    simp only [ok_bind, hcon _ _ _ _ Tol.default_nonneg Tol.default_abs]
    obtain ⟨r1, hr1⟩ := (C64_contains_point hS y Tol.default_nonneg).1
    obtain ⟨r2, hr2⟩ := (C64_contains_point hR y Tol.default_nonneg).1
    rw [hr1, hr2]
    simp only [ok_bind]
    split_ifs
    · exact corresponds_error ⟨_, rfl⟩ ⟨_, rfl⟩
    · exact corresponds_moved φ rfl rfl
  · rw [h1, h2]
    exact corresponds_error ⟨m, rfl⟩ ⟨m', rfl⟩

/-! ## The hypotheses are met -/

/-- Swap the coordinates, double, shift by `(3, 4)`. -/
noncomputable def swapTwice : Similarity 2 where
  U := LinearIsometryEquiv.piLpCongrLeft 2 ℝ ℝ (Equiv.swap (0 : Fin 2) 1)
  c := 2
  pos := by norm_num
  t := vec2 3 4

theorem swapTwice_vec (x y : ℝ) : swapTwice.vec (vec2 x y) = vec2 (2 * y) (2 * x) := by
  ext i
  fin_cases i <;> simp [swapTwice, Similarity.vec, vec2, LinearIsometryEquiv.piLpCongrLeft_apply, Equiv.piCongrLeft']

theorem swapTwice_pt (x y : ℝ) : swapTwice.pt (vec2 x y) = vec2 (2 * y + 3) (2 * x + 4) := by
  have := swapTwice_vec x y
  have e : swapTwice.pt (vec2 x y) = swapTwice.vec (vec2 x y) + vec2 3 4 := rfl
  rw [e, this]
  ext i
  fin_cases i <;> simp [vec2]

theorem swapTwice_orient : swapTwice.orient = -1 := by
  have h := swapTwice.det2_vec (vec2 1 0) (vec2 0 1)
  rw [swapTwice_vec, swapTwice_vec] at h
  have hc : swapTwice.c = 2 := rfl
  simp [vec2, hc] at h
  linarith

/-- The two segments of `C101_segment` can both be constructed. -/
example : (∃ S, LineSegment.new (arr (vec2 0 0)) (arr (vec2 1 0)) = .ok (S : LineSegment ℝ)) ∧
    ∃ S', LineSegment.new (arr (swapTwice.pt (vec2 0 0))) (arr (swapTwice.pt (vec2 1 0))) = .ok (S' : LineSegment ℝ) := by
  refine ⟨⟨_, (C63_constructor _ _).2.1 0 (by simp [vec2]; norm_num)⟩, _, (C63_constructor _ _).2.1 1 ?_⟩
  rw [swapTwice_pt, swapTwice_pt]
  simp [vec2]; norm_num

/-- A triangle and its image. -/
example [NumpyExt ℝ] [LawfulNumpy] {T : Triangle ℝ}
    (h : Triangle.new (arr (vec2 0 0)) (arr (vec2 3 0)) (arr (vec2 0 4)) = .ok T) :
    ∃ T', Triangle.new (arr (vec2 3 4)) (arr (vec2 3 10)) (arr (vec2 11 4)) = .ok T' ∧ ∀ v, T'.angle v = T.angle v := by
  obtain ⟨T', h1, -, -, h2, -⟩ := C101_triangle swapTwice h
  refine ⟨T', ?_, h2⟩
  rw [← h1, swapTwice_pt, swapTwice_pt, swapTwice_pt]
  norm_num

end SkSpatial
