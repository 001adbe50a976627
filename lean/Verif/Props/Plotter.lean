import Verif.Spec.Plot
import Verif.Props.Triangle
import Verif.Props.LineSegment
import Verif.Props.CylinderMesh
/-! # C70, C72: `plotter`, `plot_2d`, `plot_3d` -/

namespace SkSpatial
open Obj

section dispatch
variable {K : Type} [PyNum K]

/-- C70: for every object with a dimension, `plotter` returns the object's 2D plot function iff the dimension is 2
and the class can be plotted in 2D, the 3D one iff the dimension is 3 and the class can be plotted in 3D, and
raises `ValueError` otherwise. -/
theorem C70_dispatch (args : PlotArgs K) (o : Obj K) {d : Nat} (hd : o.dimension = .ok d) :
    (d = 2 → PlottableIn2D o → ∃ f, o.plot2d args = some f ∧ o.plotter args = .ok f) ∧
    (d = 3 → PlottableIn3D o → ∃ f, o.plot3d args = some f ∧ o.plotter args = .ok f) ∧
    (¬ (d = 2 ∧ PlottableIn2D o) → ¬ (d = 3 ∧ PlottableIn3D o) → ∃ msg, o.plotter args = .error (.valueError msg)) := by
  refine ⟨?_, ?_, ?_⟩
  · rintro rfl h
    cases o <;> simp_all [PlottableIn2D, plotter, plot2d]
  · rintro rfl h
    cases o <;> simp_all [PlottableIn3D, plotter, plot3d]
  · intro h2 h3
    by_cases e2 : d = 2
    · subst e2
      cases o <;> simp_all [PlottableIn2D, plotter, plot2d]
    · by_cases e3 : d = 3
      · subst e3
        cases o <;> simp_all [PlottableIn3D, plotter, plot3d]
      · simp [plotter, hd, e2, e3]

/-- C70, defect: `plotter` of a `LineSegment` always raises `AttributeError`, although both of its plot methods
exist. -/
theorem C70_segment_defect (args : PlotArgs K) (s : LineSegment K) :
    (∃ msg, (Obj.segment s).plotter args = .error (.attributeError msg)) ∧
    (Obj.segment s).plot2d args ≠ none ∧ (Obj.segment s).plot3d args ≠ none := by
  simp [plotter, Obj.dimension, plot2d, plot3d]

end dispatch

variable {n : ℕ} [NumpyExt ℝ] [LawfulNumpy]

/-- C70: which constructed objects have a plotter. -/
theorem C70_by_class (args : PlotArgs ℝ) :
    (∀ p : E n, (∃ f, (Obj.point (arr p)).plotter args = .ok f) ↔ n = 2 ∨ n = 3) ∧
    (∀ v : E n, (∃ f, (Obj.vector (arr v)).plotter args = .ok f) ↔ n = 2 ∨ n = 3) ∧
    (∀ P : List (E n), P ≠ [] → ((∃ f, (Obj.points (rows P)).plotter args = .ok f) ↔ n = 2 ∨ n = 3)) ∧
    (∀ p d : E n, ∀ L, Line.new (arr p) (arr d) = .ok L → ((∃ f, (Obj.line L).plotter args = .ok f) ↔ n = 2 ∨ n = 3)) ∧
    (∀ p d : E n, ∀ P, Plane.new (arr p) (arr d) = .ok P → ((∃ f, (Obj.plane P).plotter args = .ok f) ↔ n = 3)) ∧
    (∀ a b c : E n, ∀ T, Triangle.new (arr a) (arr b) (arr c) = .ok T →
      ((∃ f, (Obj.triangle T).plotter args = .ok f) ↔ n = 2 ∨ n = 3)) ∧
    (∀ p : List ℝ, ∀ r C, Circle.new p r = .ok C → ∃ f, (Obj.circle C).plotter args = .ok f) ∧
    (∀ p : List ℝ, ∀ r S, Sphere.new p r = .ok S → ∃ f, (Obj.sphere S).plotter args = .ok f) ∧
    (∀ p v : List ℝ, ∀ r C, Cylinder.new p v r = .ok C → ∃ f, (Obj.cylinder C).plotter args = .ok f) := by
  have key : ∀ o : Obj ℝ, ∀ d, o.dimension = .ok d → ((∃ f, o.plotter args = .ok f) ↔
      (d = 2 ∧ PlottableIn2D o) ∨ (d = 3 ∧ PlottableIn3D o)) := by
    intro o d hd
    obtain ⟨h1, h2, h3⟩ := C70_dispatch args o hd
    constructor
    · rintro ⟨f, hf⟩
      by_contra hc
      rw [not_or] at hc
      obtain ⟨msg, hm⟩ := h3 hc.1 hc.2
      rw [hm] at hf; cases hf
    · rintro (⟨rfl, h⟩ | ⟨rfl, h⟩)
      · obtain ⟨f, -, hf⟩ := h1 rfl h; exact ⟨f, hf⟩
      · obtain ⟨f, -, hf⟩ := h2 rfl h; exact ⟨f, hf⟩
  refine ⟨fun p => ?_, fun v => ?_, fun P hP => ?_, ?_, ?_, ?_, ?_, ?_, ?_⟩
  · rw [key (.point (arr p)) n (by simp [Obj.dimension])]; simp [PlottableIn2D, PlottableIn3D]
  · rw [key (.vector (arr v)) n (by simp [Obj.dimension])]; simp [PlottableIn2D, PlottableIn3D]
  · obtain ⟨x, Q, rfl⟩ := List.exists_cons_of_ne_nil hP
    rw [key (.points (rows (x :: Q))) n (by simp [Obj.dimension, rowDim, rows])]; simp [PlottableIn2D, PlottableIn3D]
  · intro p d L hL
    obtain ⟨-, -, rfl⟩ := Line.new_ok hL
    rw [key _ n (by simp [Obj.dimension, Line.dimension])]; simp [PlottableIn2D, PlottableIn3D]
  · intro p d P hP
    obtain ⟨-, -, rfl⟩ := Plane.new_ok hP
    rw [key _ n (by simp [Obj.dimension, Plane.dimension])]; simp [PlottableIn2D, PlottableIn3D]
  · intro a b c T hT
    obtain ⟨-, rfl, -⟩ := Triangle.facts hT
    rw [key _ n (by simp [Obj.dimension, Triangle.dimension])]; simp [PlottableIn2D, PlottableIn3D]
  · intro p r C hC
    unfold Circle.new at hC
    obtain ⟨⟨q, s⟩, -, hC⟩ := bind_ok_iff.mp hC
    by_cases h : q.length = 2
    · simp [h] at hC; subst hC
      exact (key _ q.length rfl).mpr (Or.inl ⟨h, trivial⟩)
    · simp [h] at hC
  · intro p r C hC
    unfold Sphere.new at hC
    obtain ⟨⟨q, s⟩, -, hC⟩ := bind_ok_iff.mp hC
    by_cases h : q.length = 3
    · simp [h] at hC; subst hC
      exact (key _ q.length rfl).mpr (Or.inr ⟨h, trivial⟩)
    · simp [h] at hC
  · intro p v r C hC
    unfold Cylinder.new at hC
    obtain ⟨q, -, hC⟩ := bind_ok_iff.mp hC
    obtain ⟨w, -, hC⟩ := bind_ok_iff.mp hC
    by_cases h : q.length = 3
    · by_cases h' : w.length = 3
      · simp only [h, h', ne_eq, not_true_eq_false, if_false] at hC
        obtain ⟨z, -, hC⟩ := bind_ok_iff.mp hC
        have : C.point = q := by
          cases z
          · by_cases hr : 0 < r
            · simp [hr] at hC; rw [← hC]
            · simp [hr] at hC
          · simp at hC
        exact (key _ q.length (by simp [Obj.dimension, this])).mpr (Or.inr ⟨h, trivial⟩)
      · simp [h, h'] at hC
    · simp [h] at hC

/-- Non-vacuity: a plane in dimension 2 is constructed and has no plotter. -/
example (args : PlotArgs ℝ) : ∃ P, Plane.new (arr (0 : E 2)) (arr (vec2 1 0)) = .ok P ∧
    ¬ ∃ f, (Obj.plane P).plotter args = .ok f := by
  have h : vec2 1 0 ≠ 0 := fun h => by simpa [vec2] using congrFun (congrArg WithLp.ofLp h) 0
  refine ⟨_, Plane.new_arr 0 h, ?_⟩
  rw [(C70_by_class args).2.2.2.2.1 _ _ _ (Plane.new_arr 0 h)]
  norm_num

/-! ## C72: what is drawn -/

section draw
omit [NumpyExt ℝ] [LawfulNumpy]

theorem arr2_eq (x : E 2) : arr x = [x 0, x 1] := by simp [arr]
theorem arr3_eq (x : E 3) : arr x = [x 0, x 1, x 2] := by simp [arr]

theorem connect2_arr (a b : E 2) : connectPoints2d (arr a) (arr b) = .ok [drawnSegment2 a b] := by
  simp [connectPoints2d, item, arr2_eq, drawnSegment2]

theorem connect3_arr (a b : E 3) : connectPoints3d ⟨true⟩ (arr a) (arr b) = .ok [drawnSegment3 a b] := by
  simp [connectPoints3d, item, arr3_eq, drawnSegment3]

theorem col_rows {n : ℕ} (P : List (E n)) (i : ℕ) (hi : i < n) :
    col (rows P) i = .ok (P.map fun x => x ⟨i, hi⟩) := by
  unfold col
  rw [rows, List.mapM_map] 
  apply mapM_ok
  intro x _
  simp [item, arr, hi]

theorem scatter2_rows (P : List (E 2)) : scatter2d (rows P) = .ok [drawnPoints2 P] := by
  simp [scatter2d, col_rows P 0 (by norm_num), col_rows P 1 (by norm_num), drawnPoints2]

theorem scatter3_rows (P : List (E 3)) : scatter3d ⟨true⟩ (rows P) = .ok [drawnPoints3 P] := by
  simp [scatter3d, col_rows P 0 (by norm_num), col_rows P 1 (by norm_num), col_rows P 2 (by norm_num), drawnPoints3]

/-- C72: points and vectors. A `Point` and `Points` are drawn at their coordinates; a `Vector` is drawn from its tail
`p` (default the origin) to `p + scalar * v` (in 2D as an arrow). -/
theorem C72_points_vectors (args : PlotArgs ℝ) (ax : Axes) :
    (∀ x : E 2, ∃ f, (Obj.point (arr x)).plotter args = .ok f ∧ f ax = .ok [drawnPoints2 [x]]) ∧
    (∀ x : E 3, ∃ f, (Obj.point (arr x)).plotter args = .ok f ∧ f ⟨true⟩ = .ok [drawnPoints3 [x]]) ∧
    (∀ P : List (E 2), P ≠ [] → ∃ f, (Obj.points (rows P)).plotter args = .ok f ∧ f ax = .ok [drawnPoints2 P]) ∧
    (∀ P : List (E 3), P ≠ [] → ∃ f, (Obj.points (rows P)).plotter args = .ok f ∧ f ⟨true⟩ = .ok [drawnPoints3 P]) ∧
    (∀ v p : E 2, (args.tail = some (arr p) ∨ args.tail = none ∧ p = 0) →
      ∃ f, (Obj.vector (arr v)).plotter args = .ok f ∧
        f ax = .ok [.arrow (p 0) (p 1) ((args.scalar • v) 0) ((args.scalar • v) 1)]) ∧
    (∀ v p : E 3, (args.tail = some (arr p) ∨ args.tail = none ∧ p = 0) →
      ∃ f, (Obj.vector (arr v)).plotter args = .ok f ∧ f ⟨true⟩ = .ok [drawnSegment3 p (p + args.scalar • v)]) := by
  refine ⟨fun x => ?_, fun x => ?_, fun P hP => ?_, fun P hP => ?_, fun v p hp => ?_, fun v p hp => ?_⟩
  · exact ⟨fun _ => scatter2d [arr x], by simp [plotter, Obj.dimension, plot2d], scatter2_rows [x]⟩
  · exact ⟨fun ax => scatter3d ax [arr x], by simp [plotter, Obj.dimension, plot3d], scatter3_rows [x]⟩
  · obtain ⟨x, Q, rfl⟩ := List.exists_cons_of_ne_nil hP
    exact ⟨fun _ => scatter2d (rows (x :: Q)), by simp [plotter, Obj.dimension, plot2d, rowDim, rows], scatter2_rows _⟩
  · obtain ⟨x, Q, rfl⟩ := List.exists_cons_of_ne_nil hP
    exact ⟨fun ax => scatter3d ax (rows (x :: Q)), by simp [plotter, Obj.dimension, plot3d, rowDim, rows], scatter3_rows _⟩
  · refine ⟨fun _ => Vec.plot2d args (arr v), by simp [plotter, Obj.dimension, plot2d], ?_⟩
    have ht : args.tail.getD [zero, zero] = arr p := by
      rcases hp with hp | ⟨hp, rfl⟩
      · simp [hp]
      · simp [hp, arr2_eq, zero, PyNum.ofInt]
    simp only [Vec.plot2d, ht, arr2_eq]
    rfl
  · refine ⟨fun ax => Vec.plot3d args ax (arr v), by simp [plotter, Obj.dimension, plot3d], ?_⟩
    have ht : args.tail.getD [zero, zero, zero] = arr p := by
      rcases hp with hp | ⟨hp, rfl⟩
      · simp [hp]
      · simp [hp, arr3_eq, zero, PyNum.ofInt]
    simp only [Vec.plot3d, ht, smul_arr, vadd_arr, ok_bind, connect3_arr]

/-- C72: a line is drawn as the segment between its points at `t_1` and `t_2` (both on the line; by default the base
point and the base point plus the direction). -/
theorem C72_line (args : PlotArgs ℝ) (ax : Axes) :
    (∀ p d : E 2, ∀ L, Line.new (arr p) (arr d) = .ok L → ∃ f, (Obj.line L).plotter args = .ok f ∧
      f ax = .ok [drawnSegment2 (p + args.t1 • d) (p + args.t2 • d)]) ∧
    (∀ p d : E 3, ∀ L, Line.new (arr p) (arr d) = .ok L → ∃ f, (Obj.line L).plotter args = .ok f ∧
      f ⟨true⟩ = .ok [drawnSegment3 (p + args.t1 • d) (p + args.t2 • d)]) := by
  constructor
  · intro p d L hL
    obtain ⟨-, -, rfl⟩ := Line.new_ok hL
    exact ⟨fun _ => Line.plot2d args ⟨arr p, arr d⟩, by simp [plotter, Obj.dimension, plot2d, Line.dimension],
      by simp [Line.plot2d, Line.toPoint, connect2_arr]⟩
  · intro p d L hL
    obtain ⟨-, -, rfl⟩ := Line.new_ok hL
    exact ⟨fun ax => Line.plot3d args ax ⟨arr p, arr d⟩, by simp [plotter, Obj.dimension, plot3d, Line.dimension],
      by simp [Line.plot3d, Line.toPoint, connect3_arr]⟩

/-- C72: a circle is drawn with its centre and radius; a segment (through `plot_2d` / `plot_3d` directly) between its
endpoints. -/
theorem C72_circle_segment (args : PlotArgs ℝ) (ax : Axes) :
    (∀ (c : E 2) (r : ℝ) (C : Circle ℝ), Circle.new (arr c) r = .ok C →
      ∃ f, (Obj.circle C).plotter args = .ok f ∧ f ax = .ok [.circle (arr c) r]) ∧
    (∀ (a b : E 2) (S : LineSegment ℝ), LineSegment.new (arr a) (arr b) = .ok S →
      ∃ f, (Obj.segment S).plot2d args = some f ∧ f ax = .ok [drawnSegment2 a b]) ∧
    (∀ (a b : E 3) (S : LineSegment ℝ), LineSegment.new (arr a) (arr b) = .ok S →
      ∃ f, (Obj.segment S).plot3d args = some f ∧ f ⟨true⟩ = .ok [drawnSegment3 a b]) := by
  refine ⟨?_, ?_, ?_⟩
  · intro c r C hC
    obtain ⟨-, rfl⟩ := Circle.new_ok hC
    exact ⟨_, by simp [plotter, Obj.dimension, plot2d]; rfl, rfl⟩
  · intro a b S hS
    obtain ⟨-, -, rfl⟩ := LineSegment.new_ok hS
    exact ⟨_, rfl, connect2_arr a b⟩
  · intro a b S hS
    obtain ⟨-, -, rfl⟩ := LineSegment.new_ok hS
    exact ⟨_, rfl, connect3_arr a b⟩

end draw

/-- C72: a triangle is drawn as its three vertices (the default), or with `part='lines'` (and the default `t_1`, `t_2`)
as its three sides; any other value of `part` draws nothing, without an error. -/
theorem C72_triangle (args : PlotArgs ℝ) (ax : Axes) :
    (∀ a b c : E 2, ∀ T, Triangle.new (arr a) (arr b) (arr c) = .ok T → ∃ f, (Obj.triangle T).plotter args = .ok f ∧
      (args.part = "points" → f ax = .ok [drawnPoints2 [a], drawnPoints2 [b], drawnPoints2 [c]]) ∧
      (args.part = "lines" → f ax = .ok [drawnSegment2 (b + args.t1 • (c - b)) (b + args.t2 • (c - b)),
        drawnSegment2 (c + args.t1 • (a - c)) (c + args.t2 • (a - c)),
        drawnSegment2 (a + args.t1 • (b - a)) (a + args.t2 • (b - a))]) ∧
      (args.part = "lines" → args.t1 = 0 → args.t2 = 1 →
        f ax = .ok [drawnSegment2 b c, drawnSegment2 c a, drawnSegment2 a b]) ∧
      (args.part ≠ "points" → args.part ≠ "lines" → f ax = .ok [])) ∧
    (∀ a b c : E 3, ∀ T, Triangle.new (arr a) (arr b) (arr c) = .ok T → ∃ f, (Obj.triangle T).plotter args = .ok f ∧
      (args.part = "points" → f ⟨true⟩ = .ok [drawnPoints3 [a], drawnPoints3 [b], drawnPoints3 [c]]) ∧
      (args.part = "lines" → f ⟨true⟩ = .ok [drawnSegment3 (b + args.t1 • (c - b)) (b + args.t2 • (c - b)),
        drawnSegment3 (c + args.t1 • (a - c)) (c + args.t2 • (a - c)),
        drawnSegment3 (a + args.t1 • (b - a)) (a + args.t2 • (b - a))]) ∧
      (args.part = "lines" → args.t1 = 0 → args.t2 = 1 →
        f ⟨true⟩ = .ok [drawnSegment3 b c, drawnSegment3 c a, drawnSegment3 a b]) ∧
      (args.part ≠ "points" → args.part ≠ "lines" → f ⟨true⟩ = .ok [])) := by
  constructor
  · intro a b c T hT
    obtain ⟨-, rfl, -, hab, hbc, hac⟩ := Triangle.facts hT
    refine ⟨fun _ => Triangle.plot2d args ⟨arr a, arr b, arr c⟩,
      by simp [plotter, Obj.dimension, plot2d, Triangle.dimension], ?_, ?_, ?_, ?_⟩
    · intro h
      have s := fun x : E 2 => scatter2_rows [x]
      simp only [rows, List.map_cons, List.map_nil] at s
      simp [Triangle.plot2d, h, Triangle.multiple, Triangle.point, List.mapM_cons, s]
    · intro h
      simp [Triangle.plot2d, h, Triangle.multiple, Triangle.line, List.mapM_cons, fromPoints_line hab,
        fromPoints_line hbc, fromPoints_line hac.symm, Line.plot2d, Line.toPoint, connect2_arr]
    · intro h h1 h2
      simp [Triangle.plot2d, h, Triangle.multiple, Triangle.line, List.mapM_cons, fromPoints_line hab,
        fromPoints_line hbc, fromPoints_line hac.symm, Line.plot2d, Line.toPoint, h1, h2, connect2_arr]
    · intro h1 h2
      simp [Triangle.plot2d, h1, h2]
  · intro a b c T hT
    obtain ⟨-, rfl, -, hab, hbc, hac⟩ := Triangle.facts hT
    refine ⟨fun ax => Triangle.plot3d args ax ⟨arr a, arr b, arr c⟩,
      by simp [plotter, Obj.dimension, plot3d, Triangle.dimension], ?_, ?_, ?_, ?_⟩
    · intro h
      have s := fun x : E 3 => scatter3_rows [x]
      simp only [rows, List.map_cons, List.map_nil] at s
      simp [Triangle.plot3d, h, Triangle.multiple, Triangle.point, List.mapM_cons, s]
    · intro h
      simp [Triangle.plot3d, h, Triangle.multiple, Triangle.line, List.mapM_cons, fromPoints_line hab,
        fromPoints_line hbc, fromPoints_line hac.symm, Line.plot3d, Line.toPoint, connect3_arr]
    · intro h h1 h2
      simp [Triangle.plot3d, h, Triangle.multiple, Triangle.line, List.mapM_cons, fromPoints_line hab,
        fromPoints_line hbc, fromPoints_line hac.symm, Line.plot3d, Line.toPoint, h1, h2, connect3_arr]
    · intro h1 h2
      simp [Triangle.plot3d, h1, h2]

omit [NumpyExt ℝ] [LawfulNumpy] in
theorem surface_ok (X Y Z : List (List ℝ)) : plotSurface ⟨true⟩ X Y Z = .ok [.surface X Y Z] := by
  simp [plotSurface]

omit [NumpyExt ℝ] [LawfulNumpy] in
/-- C72: planes, spheres and cylinders are drawn as one surface all of whose mesh points lie on the object: the mesh of
`to_mesh` with the same keywords. -/
theorem C72_surfaces (args : PlotArgs ℝ) :
    (∀ (p m : E 3) (P : Plane ℝ), Plane.new (arr p) (arr m) = .ok P → args.limsX ≠ [] → args.limsY ≠ [] →
      ∃ f X Y Z, ∃ Q : List (E 3), (Obj.plane P).plotter args = .ok f ∧ f ⟨true⟩ = .ok [.surface X Y Z] ∧
        P.toMesh args.limsX args.limsY = .ok (X, Y, Z) ∧
        meshToPoints X Y Z = rows Q ∧ Q.length = args.limsX.length * args.limsY.length ∧ ∀ x ∈ Q, x ∈ planeSet p m) ∧
    (∀ (c : E 3) (r : ℝ) (S : Sphere ℝ), Sphere.new (arr c) r = .ok S → 1 ≤ args.nAngles →
      ∃ f X Y Z, ∃ Q : List (E 3), (Obj.sphere S).plotter args = .ok f ∧ f ⟨true⟩ = .ok [.surface X Y Z] ∧
        S.toMesh args.nAngles = (X, Y, Z) ∧
        meshToPoints X Y Z = rows Q ∧ Q.length = args.nAngles * args.nAngles ∧ ∀ x ∈ Q, x ∈ Metric.sphere c r) ∧
    (∀ (p a : E 3) (r : ℝ) (C : Cylinder ℝ), Cylinder.new (arr p) (arr a) r = .ok C →
      ∃ f X Y Z, ∃ Q : List (E 3), (Obj.cylinder C).plotter args = .ok f ∧ f ⟨true⟩ = .ok [.surface X Y Z] ∧
        C.toMesh args.nAlongAxis args.nAngles = .ok (X, Y, Z) ∧
        meshToPoints X Y Z = rows Q ∧ Q.length = args.nAngles * args.nAlongAxis ∧ ∀ x ∈ Q, x ∈ latCyl p a r) := by
  have hnp : ∀ {l : List (List ℝ)} {Q : List (E 3)}, newPoints l = .ok (rows Q) → l = rows Q := by
    intro l Q h
    unfold newPoints at h
    repeat' split at h
    all_goals first | (cases h; done) | (simpa using h)
  refine ⟨?_, ?_, ?_⟩
  · intro p m P hP hx hy
    obtain ⟨F, ⟨X, Y, Z, hmesh, -⟩, hpts, hF, -⟩ := (C41_to_points hP _ _ hx hy).1 (by norm_num) (by norm_num)
    obtain ⟨-, -, hPP⟩ := Plane.new_ok hP
    obtain ⟨f, hf, hpl⟩ := (C70_dispatch args (.plane P) (d := 3) (by rw [hPP]; simp [Obj.dimension, Plane.dimension])).2.1
      rfl trivial
    refine ⟨f, X, Y, Z, (limPairs args.limsX args.limsY).map F, hpl, ?_, hmesh, ?_, ?_, ?_⟩
    · cases hf; simp [hmesh, surface_ok]
    · simp only [Plane.toPoints, hmesh, ok_bind] at hpts; exact hnp hpts
    · simp [limPairs, mul_comm]
    · intro x hx
      obtain ⟨q, -, rfl⟩ := List.mem_map.mp hx
      simpa [pad3, padTo] using hF q
  · intro c r S hS hk
    obtain ⟨Q, hpts, hlen, hQ, -, X, Y, Z, hmesh, -⟩ := C48_sphere_mesh hS _ hk
    obtain ⟨-, hSS⟩ := Sphere.new_ok hS
    obtain ⟨f, hf, hpl⟩ := (C70_dispatch args (.sphere S) (d := 3) (by rw [hSS]; simp [Obj.dimension])).2.1 rfl trivial
    refine ⟨f, X, Y, Z, Q, hpl, ?_, hmesh, ?_, hlen, hQ⟩
    · cases hf; simp [hmesh, surface_ok]
    · simp only [Sphere.toPoints, hmesh] at hpts; exact hnp hpts
  · intro p a r C hC
    obtain ⟨Q, u, u1, u2, ts, θs, -, -, h1, h2, -, -, hQ, hlat, -, -, -, -, -, -, -, X, Y, Z, hmesh, -, -, -, -, hrows⟩ :=
      C54_mesh hC args.nAlongAxis args.nAngles
    obtain ⟨-, -, hCC⟩ := Cylinder.new_ok hC
    obtain ⟨f, hf, hpl⟩ := (C70_dispatch args (.cylinder C) (d := 3) (by rw [hCC]; simp [Obj.dimension])).2.1 rfl trivial
    refine ⟨f, X, Y, Z, Q, hpl, ?_, hmesh, hrows, ?_, hlat⟩
    · cases hf; simp [hmesh, surface_ok]
    · rw [hQ]; simp [List.length_flatMap, h1, h2]

omit [NumpyExt ℝ] [LawfulNumpy] in
/-- C72: the 3D plot methods raise on axes that are not 3D (a triangle only if it draws anything). -/
theorem C72_axes3d {K : Type} [PyNum K] (args : PlotArgs K) (o : Obj K) {f} (hf : o.plot3d args = some f)
    (ht : ∀ t, o = .triangle t → args.part = "points" ∨ args.part = "lines") : ∃ e, f ⟨false⟩ = .error e := by
  have hbind : ∀ {α β : Type} (x : Res α) (g : α → Res β), (∀ a, ∃ e, g a = .error e) → ∃ e, (x >>= g) = .error e := by
    intro α β x g h
    cases x with
    | error e => exact ⟨e, rfl⟩
    | ok a => exact h a
  have hc : ∀ a b : List K, ∃ e, connectPoints3d ⟨false⟩ a b = .error e := fun a b => ⟨_, rfl⟩
  have hline : ∀ l : Line K, ∃ e, Line.plot3d args ⟨false⟩ l = .error e :=
    fun l => hbind _ _ fun a => hbind _ _ fun b => hc a b
  cases o with
  | circle c => cases hf
  | point p => cases hf; exact ⟨_, rfl⟩
  | points p => cases hf; exact ⟨_, rfl⟩
  | vector v => cases hf; exact hbind _ _ fun a => hc _ _
  | line l => cases hf; exact hline l
  | plane P => cases hf; exact hbind _ _ fun ⟨X, Y, Z⟩ => ⟨_, rfl⟩
  | sphere S => cases hf; exact ⟨_, rfl⟩
  | cylinder C => cases hf; exact hbind _ _ fun ⟨X, Y, Z⟩ => ⟨_, rfl⟩
  | segment S => cases hf; exact hc _ _
  | triangle t =>
    cases hf
    simp only [Triangle.plot3d]
    rcases ht t rfl with h | h
    · rw [if_pos h]
      simp [Triangle.multiple, List.mapM_cons, Triangle.point, scatter3d]
    · rw [if_neg (by rw [h]; decide), if_pos h]
      simp only [Triangle.multiple, List.mapM_cons, List.mapM_nil]
      rcases t.line "a" with e | l1
      · exact ⟨e, rfl⟩
      rcases t.line "b" with e | l2
      · exact ⟨e, rfl⟩
      rcases t.line "c" with e | l3
      · exact ⟨e, rfl⟩
      obtain ⟨e, he⟩ := hline l1
      exact ⟨e, by simp [List.mapM_cons, he]⟩

omit [NumpyExt ℝ] [LawfulNumpy] in
/-- C72: `plot_2d(*plotters)` and `plot_3d(*plotters)` call the plotters in order on the same new axes. -/
theorem C72_plot_all {K : Type} [PyNum K] (b : Bool) (fs : List (Axes → Res (List (Drawing K))))
    (ds : List (List (Drawing K))) (h : List.Forall₂ (fun f d => f ⟨b⟩ = .ok d) fs ds) :
    plotAll b fs = .ok ds.flatten := by
  have : fs.mapM (fun f => f ⟨b⟩) = .ok ds := by
    induction h with
    | nil => rfl
    | cons h _ ih => simp [List.mapM_cons, h, ih]
  simp [plotAll, this]

omit [NumpyExt ℝ] [LawfulNumpy] in
/-- C72: `plot_2d` called directly on an object of higher dimension draws its projection to the first two coordinates;
on an object of dimension 1 it raises `IndexError`. -/
theorem C72_projection (args : PlotArgs ℝ) (ax : Axes) (a b : E n) :
    (∀ h : 2 ≤ n,
      (∃ f, (Obj.point (arr a)).plot2d args = some f ∧ f ax = .ok [.scatter [[a ⟨0, by omega⟩], [a ⟨1, by omega⟩]]]) ∧
      ∃ f, (Obj.segment ⟨arr a, arr b⟩).plot2d args = some f ∧
        f ax = .ok [.plot [[a ⟨0, by omega⟩, b ⟨0, by omega⟩], [a ⟨1, by omega⟩, b ⟨1, by omega⟩]]]) ∧
    (n = 1 → (∃ f msg, (Obj.point (arr a)).plot2d args = some f ∧ f ax = .error (.indexError msg)) ∧
      ∃ f msg, (Obj.segment ⟨arr a, arr b⟩).plot2d args = some f ∧ f ax = .error (.indexError msg)) := by
  constructor
  · intro h
    have h0 : 0 < n := by omega
    have h1 : 1 < n := by omega
    refine ⟨⟨_, rfl, ?_⟩, ⟨_, rfl, ?_⟩⟩
    · have e0 := col_rows [a] 0 h0
      have e1 := col_rows [a] 1 h1
      simp only [rows, List.map_cons, List.map_nil] at e0 e1
      simp [scatter2d, e0, e1]
    · simp [connectPoints2d, item, arr, h0, h1]
  · rintro rfl
    refine ⟨⟨_, "index out of bounds", rfl, ?_⟩, ⟨_, "index out of bounds", rfl, ?_⟩⟩
    · simp [scatter2d, col, item, arr, List.mapM_cons]
    · simp [connectPoints2d, item, arr]

omit [NumpyExt ℝ] [LawfulNumpy] in
/-- C72: what the default keywords draw: a line from its point to its point plus its direction, a vector from the
origin, and 2 x 2, 30 x 30 and 30 x 100 meshes of planes (over `[-1, 1]` x `[-1, 1]`), spheres and cylinders. -/
theorem C72_defaults (ax : Axes) :
    (∀ p d : E 2, ∀ L, Line.new (arr p) (arr d) = .ok L → ∃ f, (Obj.line L).plotter PlotArgs.default = .ok f ∧
      f ax = .ok [drawnSegment2 p (p + d)]) ∧
    (∀ p d : E 3, ∀ L, Line.new (arr p) (arr d) = .ok L → ∃ f, (Obj.line L).plotter PlotArgs.default = .ok f ∧
      f ⟨true⟩ = .ok [drawnSegment3 p (p + d)]) ∧
    (∀ v : E 2, ∃ f, (Obj.vector (arr v)).plotter PlotArgs.default = .ok f ∧ f ax = .ok [.arrow 0 0 (v 0) (v 1)]) ∧
    (∀ v : E 3, ∃ f, (Obj.vector (arr v)).plotter PlotArgs.default = .ok f ∧ f ⟨true⟩ = .ok [drawnSegment3 0 v]) ∧
    (PlotArgs.default : PlotArgs ℝ).limsX = [-1, 1] ∧ (PlotArgs.default : PlotArgs ℝ).limsY = [-1, 1] ∧
    (PlotArgs.default : PlotArgs ℝ).nAngles = 30 ∧ (PlotArgs.default : PlotArgs ℝ).nAlongAxis = 100 ∧
    (PlotArgs.default : PlotArgs ℝ).part = "points" := by
  have h0 : (PlotArgs.default : PlotArgs ℝ).t1 = 0 := by simp [PlotArgs.default]
  have h1 : (PlotArgs.default : PlotArgs ℝ).t2 = 1 := by simp [PlotArgs.default]
  have h2 : (PlotArgs.default : PlotArgs ℝ).scalar = 1 := by simp [PlotArgs.default]
  refine ⟨fun p d L hL => ?_, fun p d L hL => ?_, fun v => ?_, fun v => ?_, by simp [PlotArgs.default],
    by simp [PlotArgs.default], rfl, rfl, rfl⟩
  · obtain ⟨f, a, b⟩ := (C72_line PlotArgs.default ax).1 p d L hL
    exact ⟨f, a, by rw [b, h0, h1]; simp⟩
  · obtain ⟨f, a, b⟩ := (C72_line PlotArgs.default ax).2 p d L hL
    exact ⟨f, a, by rw [b, h0, h1]; simp⟩
  · obtain ⟨f, a, b⟩ := (C72_points_vectors PlotArgs.default ax).2.2.2.2.1 v 0 (Or.inr ⟨rfl, rfl⟩)
    exact ⟨f, a, by rw [b, h2]; simp⟩
  · obtain ⟨f, a, b⟩ := (C72_points_vectors PlotArgs.default ax).2.2.2.2.2 v 0 (Or.inr ⟨rfl, rfl⟩)
    exact ⟨f, a, by rw [b, h2]; simp⟩

/-- Non-vacuity: the line through (1, 2) with direction (3, 4) is drawn from (1, 2) to (4, 6). -/
example (ax : Axes) : ∃ L f, Line.new (arr (vec2 1 2)) (arr (vec2 3 4)) = .ok L ∧
    (Obj.line L).plotter (PlotArgs.default : PlotArgs ℝ) = .ok f ∧ f ax = .ok [drawnSegment2 (vec2 1 2) (vec2 4 6)] := by
  have h : vec2 3 4 ≠ 0 := fun h => by simpa [vec2] using congrFun (congrArg WithLp.ofLp h) 0
  obtain ⟨f, h1, h2⟩ := (C72_line PlotArgs.default ax).1 _ _ _ (Line.new_arr (vec2 1 2) h)
  refine ⟨_, f, Line.new_arr _ h, h1, ?_⟩
  rw [h2]
  norm_num [PlotArgs.default, zero, one, PyNum.ofInt, drawnSegment2, vec2]

/-- Non-vacuity: the unit sphere is drawn as a 30 x 30 surface. -/
example : ∃ S f X Y Z, ∃ Q : List (E 3), Sphere.new (arr (0 : E 3)) 1 = .ok S ∧
    (Obj.sphere S).plotter (PlotArgs.default : PlotArgs ℝ) = .ok f ∧ f ⟨true⟩ = .ok [.surface X Y Z] ∧
    meshToPoints X Y Z = rows Q ∧ Q.length = 900 := by
  have h := Sphere.new_arr (0 : E 3) one_pos
  obtain ⟨f, X, Y, Z, Q, h1, h2, -, h3, h4, -⟩ := (C72_surfaces PlotArgs.default).2.1 _ _ _ h (by simp [PlotArgs.default])
  exact ⟨_, f, X, Y, Z, Q, h, h1, h2, h3, h4⟩

end SkSpatial
