import Verif.Props.Representation2
import Verif.Props.SumOrder
/-!
# C103: the order of the points, and the order of the two objects

The set predicates on points depend on the set of points only; methods taking two objects of the same kind are symmetric.
-/

namespace SkSpatial
open EuclideanGeometry

variable {n : ℕ}

/-- C103: `unique`, `affine_rank`, `are_concurrent`, `are_collinear` and `are_coplanar` depend only on the set of
points, neither on their order nor on repetitions. -/
theorem C103_point_set [NumpyExt ℝ] {P Q : List (E n)} (h : ∀ x, x ∈ P ↔ x ∈ Q) (tol : Option ℝ) :
    Pts.unique (rows P) = Pts.unique (rows Q) ∧
    Pts.affineRank tol (rows P) = Pts.affineRank tol (rows Q) ∧
    Pts.areConcurrent tol (rows P) = Pts.areConcurrent tol (rows Q) ∧
    Pts.areCollinear tol (rows P) = Pts.areCollinear tol (rows Q) ∧
    Pts.areCoplanar tol (rows P) = Pts.areCoplanar tol (rows Q) := by
  have hu : Pts.unique (rows P) = Pts.unique (rows Q) := by
    simp only [Pts.unique]
    rw [npUnique_congr]
    intro s
    simp only [mem_rows, h]
  have hr : Pts.affineRank tol (rows P) = Pts.affineRank tol (rows Q) := by simp only [Pts.affineRank, hu]
  exact ⟨hu, hr, by simp only [Pts.areConcurrent, hr], by simp only [Pts.areCollinear, hr], by simp only [Pts.areCoplanar, hr]⟩

theorem npUnique_rounded (fl : Arith) (L : List (List ℝ)) : @npUnique ℝ (rounded fl) L = npUnique L := by
  have hlt : ∀ a b : List ℝ, @rowLt ℝ (rounded fl) a b = rowLt a b := by
    intro a
    induction a with
    | nil => intro b; cases b <;> rfl
    | cons x xs ih =>
      intro b
      cases b with
      | nil => rfl
      | cons y ys => simp only [rowLt, ih ys]; rfl
  have hins : ∀ (r : List ℝ) (l : List (List ℝ)), @insertRow ℝ (rounded fl) r l = insertRow r l := by
    intro r l
    induction l with
    | nil => rfl
    | cons s t ih => simp only [insertRow, ih, hlt]; rfl
  induction L with
  | nil => rfl
  | cons r t ih => simp only [npUnique, List.foldr_cons] at ih ⊢; rw [ih, hins]

/-- C103, floating point: whatever the rounding and whatever `matrix_rank` does, the same holds bit for bit. -/
theorem C103_point_set_rounded (fl : Arith) [ext : NumpyExt ℝ] {P Q : List (E n)} (h : ∀ x, x ∈ P ↔ x ∈ Q) (tol : Option ℝ) :
    @Pts.unique ℝ (rounded fl) (rows P) = @Pts.unique ℝ (rounded fl) (rows Q) ∧
    @Pts.affineRank ℝ (rounded fl) ext tol (rows P) = @Pts.affineRank ℝ (rounded fl) ext tol (rows Q) ∧
    @Pts.areConcurrent ℝ (rounded fl) ext tol (rows P) = @Pts.areConcurrent ℝ (rounded fl) ext tol (rows Q) ∧
    @Pts.areCollinear ℝ (rounded fl) ext tol (rows P) = @Pts.areCollinear ℝ (rounded fl) ext tol (rows Q) ∧
    @Pts.areCoplanar ℝ (rounded fl) ext tol (rows P) = @Pts.areCoplanar ℝ (rounded fl) ext tol (rows Q) := by
  have hu : @Pts.unique ℝ (rounded fl) (rows P) = @Pts.unique ℝ (rounded fl) (rows Q) := by
    simp only [Pts.unique, npUnique_rounded]
    rw [npUnique_congr]
    intro s
    simp only [mem_rows, h]
  have hr : @Pts.affineRank ℝ (rounded fl) ext tol (rows P) = @Pts.affineRank ℝ (rounded fl) ext tol (rows Q) := by
    simp only [Pts.affineRank, hu]
  exact ⟨hu, hr, by simp only [Pts.areConcurrent, hr], by simp only [Pts.areCollinear, hr], by simp only [Pts.areCoplanar, hr]⟩

/-- C103: the centroid does not depend on the order of the points; every distance-based sum does not either. -/
theorem C103_centroid [NeZero n] {P Q : List (E n)} (h : P.Perm Q) (hP : P ≠ []) :
    ∃ c : E n, Pts.centroid (rows P) = .ok (arr c) ∧ Pts.centroid (rows Q) = .ok (arr c) := by
  have hQ : Q ≠ [] := fun e => hP (by rw [e] at h; exact h.eq_nil)
  refine ⟨_, centroid_rows hP, ?_⟩
  rw [centroid_rows hQ, centroidE, centroidE, h.sum_eq, h.length_eq]

theorem line_sumSquares_perm {p d : E n} {L : Line ℝ} (hL : Line.new (arr p) (arr d) = .ok L) {P Q : List (E n)} (h : P.Perm Q) (hP : P ≠ []) :
    ∃ e, L.sumSquares (rows P) = .ok e ∧ L.sumSquares (rows Q) = .ok e := by
  have hQ : Q ≠ [] := fun e => hP (by rw [e] at h; exact h.eq_nil)
  obtain ⟨hn, hd, rfl⟩ := Line.new_ok hL
  refine ⟨_, Line.sumSquares_arr p d hP, ?_⟩
  rw [Line.sumSquares_arr p d hQ, (h.map _).sum_eq]

theorem plane_sumSquares_perm {p m : E n} {L : Plane ℝ} (hL : Plane.new (arr p) (arr m) = .ok L) {P Q : List (E n)} (h : P.Perm Q) (hP : P ≠ []) :
    ∃ e, L.sumSquares (rows P) = .ok e ∧ L.sumSquares (rows Q) = .ok e := by
  have hQ : Q ≠ [] := fun e => hP (by rw [e] at h; exact h.eq_nil)
  obtain ⟨hn, hm, rfl⟩ := Plane.new_ok hL
  refine ⟨_, Plane.sumSquares_arr p hm hP, ?_⟩
  rw [Plane.sumSquares_arr p hm hQ, (h.map _).sum_eq]

/-- C103: `Line.best_fit` and `Plane.best_fit` of the points in another order: both raise, or the same point and
the same error (the smallest possible one, in both cases). -/
theorem C103_line_best_fit [NumpyExt ℝ] [LawfulNumpy] [NeZero n] {P Q : List (E n)} (h : P.Perm Q) (hP : P ≠ [])
    (tol : Option ℝ) (htol : ∀ t, tol = some t → 0 ≤ t) (full full' : Bool) :
    Corresponds (fun r r' : Line ℝ × ℝ => r'.1.point = r.1.point ∧ r'.2 = r.2)
      (Line.bestFit (rows P) tol full) (Line.bestFit (rows Q) tol full') := by
  have hQ : Q ≠ [] := fun e => hP (by rw [e] at h; exact h.eq_nil)
  have hconc := (C103_point_set (fun x => h.mem_iff) tol).2.2.1
  obtain ⟨b0, -, -, hb, -⟩ := C22_predicates hP tol htol
  have hB := C31_line_best_fit hP tol htol full
  have hB' := C31_line_best_fit hQ tol htol full'
  rw [← hconc] at hB'
  cases b0 with
  | true => exact corresponds_error (hB.1 hb) (hB'.1 hb)
  | false =>
    obtain ⟨L, err, o, u, h1, h2, h3, h4, h5, h6⟩ := hB.2.2 hb
    obtain ⟨L', err', o', u', h1', h2', h3', h4', h5', h6'⟩ := hB'.2.2 hb
    obtain ⟨c, hc, hc'⟩ := C103_centroid h hP
    refine corresponds_ok h1 h1' ⟨?_, ?_⟩
    · obtain ⟨-, -, rfl⟩ := Line.new_ok h2
      obtain ⟨-, -, rfl⟩ := Line.new_ok h2'
      rw [h3] at hc
      rw [h3'] at hc'
      exact (Except.ok.inj hc').trans (Except.ok.inj hc).symm
    · obtain ⟨e, he, he'⟩ := line_sumSquares_perm h2 h hP
      obtain ⟨f, hf, hf'⟩ := line_sumSquares_perm h2' h hP
      rw [h5] at he; cases he
      rw [h5'] at hf'; cases hf'
      exact le_antisymm (h6' _ _ _ _ h2 he') (h6 _ _ _ _ h2' hf)

theorem C103_plane_best_fit [NumpyExt ℝ] [LawfulNumpy] {P Q : List (E 3)} (h : P.Perm Q) (hP : P ≠ [])
    (tol : Option ℝ) (htol : ∀ t, tol = some t → 0 ≤ t) (full full' : Bool) :
    Corresponds (fun r r' : Plane ℝ × ℝ => r'.1.point = r.1.point ∧ r'.2 = r.2)
      (Plane.bestFit (rows P) tol full) (Plane.bestFit (rows Q) tol full') := by
  have hQ : Q ≠ [] := fun e => hP (by rw [e] at h; exact h.eq_nil)
  have hconc := (C103_point_set (fun x => h.mem_iff) tol).2.2.2.1
  obtain ⟨-, b0, -, -, hb, -⟩ := C22_predicates hP tol htol
  have hB := C40_plane_best_fit hP tol htol full
  have hB' := C40_plane_best_fit hQ tol htol full'
  rw [← hconc] at hB'
  cases b0 with
  | true => exact corresponds_error (hB.1 hb) (hB'.1 hb)
  | false =>
    obtain ⟨L, err, o, u, h1, h2, h3, h4, h5, h6⟩ := hB.2.2 hb
    obtain ⟨L', err', o', u', h1', h2', h3', h4', h5', h6'⟩ := hB'.2.2 hb
    obtain ⟨c, hc, hc'⟩ := C103_centroid h hP
    refine corresponds_ok h1 h1' ⟨?_, ?_⟩
    · obtain ⟨-, -, rfl⟩ := Plane.new_ok h2
      obtain ⟨-, -, rfl⟩ := Plane.new_ok h2'
      rw [h3] at hc
      rw [h3'] at hc'
      exact (Except.ok.inj hc').trans (Except.ok.inj hc).symm
    · obtain ⟨e, he, he'⟩ := plane_sumSquares_perm h2 h hP
      obtain ⟨f, hf, hf'⟩ := plane_sumSquares_perm h2' h hP
      rw [h5] at he; cases he
      rw [h5'] at hf'; cases hf'
      exact le_antisymm (h6' _ _ _ _ h2 he') (h6 _ _ _ _ h2' hf)

/-- C103: `Circle.from_points`: the same circle for every order of the three points. -/
theorem C103_circle_from_points [NumpyExt ℝ] [LawfulNumpy] {a b c a' b' c' : E 2} (h : [a, b, c].Perm [a', b', c'])
    (tol : Option ℝ) (htol : ∀ t, tol = some t → 0 ≤ t) :
    Corresponds (fun C C' => C' = C) (Circle.fromPoints tol (arr a) (arr b) (arr c))
      (Circle.fromPoints tol (arr a') (arr b') (arr c')) := by
  have hcol := (C103_point_set (fun x => h.mem_iff) tol).2.2.2.1
  obtain ⟨-, b1, -, -, hb, -⟩ := C22_predicates (P := [a, b, c]) (by simp) tol htol
  have hF := C43_from_points a b c tol htol
  have hF' := C43_from_points a' b' c' tol htol
  rw [← hcol] at hF'
  cases b1 with
  | true => exact corresponds_error (hF.1 hb) (hF'.1 hb)
  | false =>
    obtain ⟨C, o, r, h1, h2, ha, hb', hc, -⟩ := hF.2.2 hb
    obtain ⟨C', o', r', h1', h2', -, -, -, hu⟩ := hF'.2.2 hb
    obtain ⟨-, rfl⟩ := Circle.new_ok h2
    obtain ⟨-, rfl⟩ := Circle.new_ok h2'
    refine corresponds_ok h1 h1' ?_
    have hall : ∀ x ∈ [a, b, c], x ∈ Metric.sphere o r := by
      intro x hx
      simp only [List.mem_cons, List.not_mem_nil, or_false] at hx
      rcases hx with rfl | rfl | rfl <;> assumption
    obtain ⟨rfl, rfl⟩ := hu o r (hall _ (h.mem_iff.mpr (by simp))) (hall _ (h.mem_iff.mpr (by simp))) (hall _ (h.mem_iff.mpr (by simp)))
    rfl

/-- C103: `Plane.from_points`: whenever it returns for two orders of the three points, the planes have the same points. -/
theorem C103_plane_from_points [NumpyExt ℝ] [LawfulNumpy] [NeZero n] {a b c a' b' c' : E n} (h : [a, b, c].Perm [a', b', c'])
    (tol : Option ℝ) (htol : ∀ t, tol = some t → 0 ≤ t) {P P' : Plane ℝ} (hP : Plane.fromPoints tol (arr a) (arr b) (arr c) = .ok P)
    (hP' : Plane.fromPoints tol (arr a') (arr b') (arr c') = .ok P') :
    ∃ p m p' m' : E 3, Plane.new (arr p) (arr m) = .ok P ∧ Plane.new (arr p') (arr m') = .ok P' ∧ planeSet p m = planeSet p' m' := by
  obtain ⟨m, hm, hs, ha, hb, hc⟩ := (C33_from_points a b c tol htol).1 P hP
  obtain ⟨m', hm', hs', ha', hb', hc'⟩ := (C33_from_points a' b' c' tol htol).1 P' hP'
  refine ⟨_, m, _, m', hm, hm', ?_⟩
  have key : ∀ {a b c a' b' c' : E n} {m m' : E 3}, [a, b, c].Perm [a', b', c'] →
      planeSet (pad3 a) m = {x | ∃ s t : ℝ, x = pad3 a + s • pad3 (b - a) + t • pad3 (c - a)} →
      pad3 a' ∈ planeSet (pad3 a') m' → pad3 b' ∈ planeSet (pad3 a') m' → pad3 c' ∈ planeSet (pad3 a') m' →
      planeSet (pad3 a) m ⊆ planeSet (pad3 a') m' := by
    intro a b c a' b' c' m m' h hs ha' hb' hc' x hx
    have hall : ∀ y ∈ [a, b, c], pad3 y ∈ planeSet (pad3 a') m' := by
      intro y hy
      rw [h.mem_iff] at hy
      simp only [List.mem_cons, List.not_mem_nil, or_false] at hy
      rcases hy with rfl | rfl | rfl <;> assumption
    rw [hs] at hx
    obtain ⟨s, t, rfl⟩ := hx
    have e1 := mem_planeSet.mp (hall a (by simp))
    have e2 := mem_planeSet.mp (hall b (by simp))
    have e3 := mem_planeSet.mp (hall c (by simp))
    rw [mem_planeSet, show pad3 a + s • pad3 (b - a) + t • pad3 (c - a) - pad3 a' =
      (1 - s - t) • (pad3 a - pad3 a') + s • (pad3 b - pad3 a') + t • (pad3 c - pad3 a') by rw [pad3_sub, pad3_sub]; module,
      inner_add_right, inner_add_right, real_inner_smul_right, real_inner_smul_right, real_inner_smul_right, e1, e2, e3]
    simp
  exact Set.Subset.antisymm (key h hs ha' hb' hc') (key h.symm hs' ha hb hc)

/-- C103: `circle.intersect_circle` is symmetric up to the order of the two points. -/
theorem C103_intersect_circle {p q : E 2} {r s : ℝ} {C D : Circle ℝ} (hC : Circle.new (arr p) r = .ok C)
    (hD : Circle.new (arr q) s = .ok D) :
    Corresponds (fun l l' => l' = l ∨ l' = l.swap) (C.intersectCircle D) (D.intersectCircle C) := by
  by_cases hpq : p = q
  · exact corresponds_error ((C44_intersect_circle hC hD).1 (.inl hpq)) ((C44_intersect_circle hD hC).1 (.inl hpq.symm))
  rcases Set.eq_empty_or_nonempty (Metric.sphere p r ∩ Metric.sphere q s) with h | h
  · exact corresponds_error ((C44_intersect_circle hC hD).1 (.inr h)) ((C44_intersect_circle hD hC).1 (.inr (by rwa [Set.inter_comm])))
  · obtain ⟨x, y, h1, h2, -⟩ := (C44_intersect_circle hC hD).2 hpq h
    obtain ⟨x', y', h1', h2', -⟩ := (C44_intersect_circle hD hC).2 (Ne.symm hpq) (by rwa [Set.inter_comm])
    refine corresponds_ok h1 h1' ?_
    rw [Set.inter_comm, h2] at h2'
    rcases pair_cases h2'.symm with ⟨rfl, rfl⟩ | ⟨rfl, rfl⟩
    · exact .inl rfl
    · exact .inr rfl

/-- C103: `plane.intersect_plane` is symmetric: the same point and the same set, for every tolerance. -/
theorem C103_intersect_plane [NumpyExt ℝ] [LawfulNumpy] {p m q k : E 3} {P Q : Plane ℝ}
    (hP : Plane.new (arr p) (arr m) = .ok P) (hQ : Plane.new (arr q) (arr k) = .ok Q) {tol : Tol ℝ} (ht : tol.Nonneg) :
    Corresponds (fun L L' => SameLine L L' ∧ L'.point = L.point) (P.intersectPlane tol Q) (Q.intersectPlane tol P) := by
  have hpt : ParallelTol tol k m ↔ ParallelTol tol m k := by
    rw [ParallelTol, ParallelTol, cosE_comm]; tauto
  by_cases hc : ParallelTol tol m k
  · exact corresponds_error ((C39_intersect_plane hP hQ ht).1 hc) ((C39_intersect_plane hQ hP ht).1 (hpt.mpr hc))
  · obtain ⟨L, x, d, hL, hLn, hset, hmin⟩ := (C39_intersect_plane hP hQ ht).2 hc
    obtain ⟨L', x', d', hL', hLn', hset', hmin'⟩ := (C39_intersect_plane hQ hP ht).2 (fun h => hc (hpt.mp h))
    obtain ⟨-, hd, rfl⟩ := Line.new_ok hLn
    obtain ⟨-, -, rfl⟩ := Line.new_ok hLn'
    rw [Set.inter_comm] at hset' hmin'
    exact corresponds_ok hL hL' ⟨⟨3, x, d, x', d', rfl, rfl, by rw [hset, hset']⟩,
      by show arr x' = arr x; rw [minNorm_unique hd hset hset' hmin hmin']⟩

theorem wellConditioned_perm {P Q : List (E n)} (h : P.Perm Q) : WellConditioned P → WellConditioned Q := by
  intro hP x y hx hy
  rw [← h.length_eq, ← (h.map _).sum_eq, ← (h.map _).sum_eq]
  exact hP x y hx hy

/-- C103: `Circle.best_fit` and `Sphere.best_fit` of well conditioned points: the same object for every order. -/
theorem C103_circle_best_fit [NumpyExt ℝ] [LawfulNumpy] {P Q : List (E 2)} (h : P.Perm Q) (hP : P ≠ []) (hw : WellConditioned P) :
    Corresponds (fun C C' => C' = C) (Circle.bestFit (rows P)) (Circle.bestFit (rows Q)) := by
  have hQ : Q ≠ [] := fun e => hP (by rw [e] at h; exact h.eq_nil)
  have hr := (C103_point_set (fun x => h.mem_iff) none).2.1
  obtain ⟨-, a2, -, a4⟩ := C47_circle_best_fit hP
  obtain ⟨-, b2, -, b4⟩ := C47_circle_best_fit hQ
  rw [← hr] at b2 b4
  by_cases h2 : Pts.affineRank none (rows P) = .ok 2
  · obtain ⟨C, c, r, h1, hC, hpos, -, hmin, -⟩ := a4 h2 hw
    obtain ⟨C', c', r', h1', hC', hpos', -, hmin', huniq, -⟩ := b4 h2 (wellConditioned_perm h hw)
    refine corresponds_ok h1 h1' ?_
    obtain ⟨rfl, rfl⟩ := huniq c r hpos (by
      rw [← (h.map _).sum_eq, ← (h.map _).sum_eq]
      exact hmin c' r')
    rw [hC] at hC'
    exact (Except.ok.inj hC').symm
  · exact corresponds_error (a2 h2) (b2 h2)

theorem C103_sphere_best_fit [NumpyExt ℝ] [LawfulNumpy] {P Q : List (E 3)} (h : P.Perm Q) (hP : P ≠ []) (hw : WellConditioned P) :
    Corresponds (fun C C' => C' = C) (Sphere.bestFit (rows P)) (Sphere.bestFit (rows Q)) := by
  have hQ : Q ≠ [] := fun e => hP (by rw [e] at h; exact h.eq_nil)
  have hr := (C103_point_set (fun x => h.mem_iff) none).2.1
  obtain ⟨-, a2, -, a4⟩ := C47_sphere_best_fit hP
  obtain ⟨-, b2, -, b4⟩ := C47_sphere_best_fit hQ
  rw [← hr] at b2 b4
  by_cases h2 : Pts.affineRank none (rows P) = .ok 3
  · obtain ⟨C, c, r, h1, hC, hpos, -, hmin, -⟩ := a4 h2 hw
    obtain ⟨C', c', r', h1', hC', hpos', -, hmin', huniq, -⟩ := b4 h2 (wellConditioned_perm h hw)
    refine corresponds_ok h1 h1' ?_
    obtain ⟨rfl, rfl⟩ := huniq c r hpos (by
      rw [← (h.map _).sum_eq, ← (h.map _).sum_eq]
      exact hmin c' r')
    rw [hC] at hC'
    exact (Except.ok.inj hC').symm
  · exact corresponds_error (a2 h2) (b2 h2)

theorem perm_two {α : Type} {b c y z : α} (h : [b, c].Perm [y, z]) : (b = y ∧ c = z) ∨ (b = z ∧ c = y) := by
  have hb : b ∈ [y, z] := h.mem_iff.mp (by simp)
  simp only [List.mem_cons, List.not_mem_nil, or_false] at hb
  rcases hb with rfl | rfl
  · have := h.cons_inv
    left; exact ⟨rfl, by simpa using this⟩
  · have := (h.trans (List.Perm.swap _ _ _)).cons_inv
    right; exact ⟨rfl, by simpa using this⟩

theorem perm_three {α : Type} {a b c x y z : α} (h : [a, b, c].Perm [x, y, z]) :
    (a = x ∧ ((b = y ∧ c = z) ∨ (b = z ∧ c = y))) ∨ (a = y ∧ ((b = x ∧ c = z) ∨ (b = z ∧ c = x))) ∨
      (a = z ∧ ((b = x ∧ c = y) ∨ (b = y ∧ c = x))) := by
  have ha : a ∈ [x, y, z] := h.mem_iff.mp (by simp)
  simp only [List.mem_cons, List.not_mem_nil, or_false] at ha
  rcases ha with rfl | rfl | rfl
  · exact .inl ⟨rfl, perm_two h.cons_inv⟩
  · exact .inr (.inl ⟨rfl, perm_two (h.trans (List.Perm.swap _ _ _)).cons_inv⟩)
  · have e : [x, y, a].Perm [a, x, y] := (List.perm_append_comm (l₁ := [x, y]) (l₂ := [a]))
    exact .inr (.inr ⟨rfl, perm_two (h.trans e).cons_inv⟩)

/-- C103: the orthocenter, whenever it is returned, does not depend on the order of the vertices. -/
theorem C103_orthocenter [NumpyExt ℝ] [LawfulNumpy] {a b c a' b' c' : E n} {T T' : Triangle ℝ} (h : [a, b, c].Perm [a', b', c'])
    (hT : Triangle.new (arr a) (arr b) (arr c) = .ok T) (hT' : Triangle.new (arr a') (arr b') (arr c') = .ok T')
    {check check' : Bool} {tol tol' : Tol ℝ} (ht : tol.Nonneg) (ht' : tol'.Nonneg) {l l' : List ℝ}
    (hl : T.orthocenter check tol = .ok l) (hl' : T'.orthocenter check' tol' = .ok l') : l = l' := by
  obtain ⟨H, -, hu, -, h1, -⟩ := C59_orthocenter hT
  obtain ⟨H', ⟨p1, p2, p3, p4⟩, -, -, h1', -⟩ := C59_orthocenter hT'
  rw [h1 check tol l ht hl, h1' check' tol' l' ht' hl']
  congr 1
  symm
  have g : ∀ w x y : E n, inner ℝ w (x - y) = (0 : ℝ) → inner ℝ w (y - x) = (0 : ℝ) := by
    intro w x y hw; rw [← neg_sub, inner_neg_right, hw, neg_zero]
  obtain ⟨u, v, w, huvw, hH⟩ := p1
  rcases perm_three h with ⟨rfl, ⟨rfl, rfl⟩ | ⟨rfl, rfl⟩⟩ | ⟨rfl, ⟨rfl, rfl⟩ | ⟨rfl, rfl⟩⟩ | ⟨rfl, ⟨rfl, rfl⟩ | ⟨rfl, rfl⟩⟩
  · exact hu _ ⟨u, v, w, huvw, hH⟩ p2 p3
  · exact hu _ ⟨u, w, v, by linarith, by rw [hH]; module⟩ (g _ _ _ p2) (g _ _ _ p4)
  · exact hu _ ⟨v, u, w, by linarith, by rw [hH]; module⟩ (g _ _ _ p3) (g _ _ _ p2)
  · exact hu _ ⟨v, w, u, by linarith, by rw [hH]; module⟩ p3 p4
  · exact hu _ ⟨w, u, v, by linarith, by rw [hH]; module⟩ p4 p2
  · exact hu _ ⟨w, v, u, by linarith, by rw [hH]; module⟩ (g _ _ _ p4) (g _ _ _ p3)

/-! ## Limits -/

/-- C103, defect: for nearly parallel lines `is_close` and `distance_line` are not symmetric: of two lines that meet in
one point only, the first is close to the second, but the second is not close to the first; the distance from the
first to the second is 0, the distance from the second to the first is not. -/
theorem C103_nearly_parallel_defect [NumpyExt ℝ] : ∃ (p d q e : E 2) (L M : Line ℝ), Line.new (arr p) (arr d) = .ok L ∧
    Line.new (arr q) (arr e) = .ok M ∧ L.isClose Tol.default (.line M) = .ok true ∧ M.isClose Tol.default (.line L) = .ok false ∧
    L.distanceLine M = .ok 0 ∧ M.distanceLine L ≠ .ok 0 := by
  have hne : ∀ s : ℝ, vec2 1 s ≠ 0 := by
    intro s h
    have := congrFun (congrArg WithLp.ofLp h) 0
    simp [vec2] at this
  have hnear := nearParallel_25000
  have hL : Line.new (arr (0 : E 2)) (arr (vec2 1 0)) = .ok _ := Line.new_arr _ (hne 0)
  have hM : Line.new (arr (vec2 1 0)) (arr (vec2 1 (1 / 25000))) = .ok _ := Line.new_arr _ (hne (1 / 25000))
  have hin : vec2 1 0 ∈ lineSet (0 : E 2) (vec2 1 0) := ⟨1, by simp⟩
  have hout : (0 : E 2) ∉ lineSet (vec2 1 0) (vec2 1 (1 / 25000)) := by
    rintro ⟨t, ht⟩
    have h0 := congrFun (congrArg WithLp.ofLp ht) 0
    have h1 := congrFun (congrArg WithLp.ofLp ht) 1
    simp [vec2] at h0 h1
    rw [h1] at h0; norm_num at h0
  classical
  refine ⟨0, vec2 1 0, vec2 1 0, vec2 1 (1 / 25000), _, _, hL, hM, ?_, ?_, ?_, ?_⟩
  · rw [(C30_line_is_close hL hM).1, decide_eq_true ⟨hin, hnear⟩]
  · rw [(C30_line_is_close hM hL).1, decide_eq_false (fun h => hout h.1)]
  · simp only [Line.distanceLine, isParallel_default_arr, hnear, decide_true, ok_bind, if_true,
      Line.distancePoint_arr, footE_self (hne 0) hin, dist_self]
  · obtain ⟨-, -, -, -, -, -, -, -, h0, -⟩ := C24_project_point hM 0
    simp only [Line.distanceLine, isParallel_default_arr, nearParallel_comm.mp hnear, decide_true, ok_bind, if_true]
    exact fun h => hout (h0.mp h)

/-- C103, floating point: the centroid does depend on the order of the points in binary64 (unlike `affine_rank`):
`2⁵³, 1, -2⁵³` have the computed centroid `0`, in the order `2⁵³, -2⁵³, 1` the computed centroid is near `1/3`. -/
theorem C103_centroid_rounded_order :
    @Pts.centroid ℝ (rounded (leftToRight (roundNearest 53))) [[2 ^ 53], [1], [-2 ^ 53]] = .ok [0] ∧
    @Pts.centroid ℝ (rounded (leftToRight (roundNearest 53))) [[2 ^ 53], [-2 ^ 53], [1]] = .ok [roundNearest 53 (1 / 3)] ∧
    roundNearest 53 (1 / 3) ≠ 0 := by
  have r0 : roundNearest 53 0 = 0 := roundNearest_zero
  have r1 : roundNearest 53 1 = 1 := by
    refine rn53 0 4503599627370496 ?_ ?_ ?_ ?_ ?_ <;> norm_num
  have r2 : roundNearest 53 (2 ^ 53) = 2 ^ 53 := by
    refine rn53 53 4503599627370496 ?_ ?_ ?_ ?_ ?_ <;> norm_num
  have r3 : roundNearest 53 (2 ^ 53 + 1) = 2 ^ 53 := by
    refine rn53_tie 53 4503599627370496 (by decide) ?_ ?_ ?_ ?_ ?_ <;> norm_num
  have r5 : roundNearest 53 (1 / 3) = 6004799503160661 / 18014398509481984 := by
    refine rn53 (-2) 6004799503160661 ?_ ?_ ?_ ?_ ?_ <;> norm_num
  refine ⟨?_, ?_, by rw [r5]; norm_num⟩
  · have : @Pts.colMeans ℝ (rounded (leftToRight (roundNearest 53))) [[2 ^ 53], [1], [-2 ^ 53]] =
        [roundNearest 53 (roundNearest 53 (roundNearest 53 (roundNearest 53 (0 + 2 ^ 53) + 1) + -2 ^ 53) / ((3 : ℤ) : ℝ))] := rfl
    simp only [Pts.centroid, this, new1D, List.length_cons, List.length_nil, isFinite_rd, List.all_cons, List.all_nil, Bool.and_self]
    simp [r2, r3, r0]
  · have : @Pts.colMeans ℝ (rounded (leftToRight (roundNearest 53))) [[2 ^ 53], [-2 ^ 53], [1]] =
        [roundNearest 53 (roundNearest 53 (roundNearest 53 (roundNearest 53 (0 + 2 ^ 53) + -2 ^ 53) + 1) / ((3 : ℤ) : ℝ))] := rfl
    simp only [Pts.centroid, this, new1D, List.length_cons, List.length_nil, isFinite_rd, List.all_cons, List.all_nil, Bool.and_self]
    simp [r2, r0, r1]

/-! ## The hypotheses are met -/

/-- Three points in two orders, and two lists with the same set of points but of different lengths. -/
example : [vec2 0 0, vec2 1 0, vec2 0 1].Perm [vec2 0 1, vec2 0 0, vec2 1 0] ∧
    (∀ x, x ∈ [vec2 0 0, vec2 1 0] ↔ x ∈ [vec2 1 0, vec2 0 0, vec2 1 0]) :=
  ⟨List.perm_append_comm (l₁ := [vec2 0 0, vec2 1 0]) (l₂ := [vec2 0 1]), by intro x; simp; tauto⟩

end SkSpatial
