import Verif.Inst.Rounded
import Verif.Lemmas.Raises
import Verif.Inst.Real
/-!
# C100: which exceptions the library raises

For every number type, every input and every behaviour of the external routines, a call either returns or raises
`ValueError`; the exceptions to this rule are listed and characterised (`C100_is_close_type`, `C100_is_coplanar_type`,
`C100_intersect_plane`).
-/

namespace SkSpatial
variable {K : Type} [PyNum K]

theorem ov_cartesianToSpherical (x y z : K) : OnlyValueError (Cylinder.cartesianToSpherical x y z) := by
  unfold Cylinder.cartesianToSpherical; ov

/-- The line of a fit has a direction with as many entries as the points (the constructor checks it). -/
theorem bestFit_direction_length [NumpyExt K] {ps : List (List K)} {t : Option K} {b : Bool} {l : Line K} {e : K}
    (h : Line.bestFit ps t b = .ok (l, e)) : l.direction.length = rowDim ps := by
  simp only [Line.bestFit, bind_ok_iff] at h
  obtain ⟨q, hq, c, hc, h⟩ := h
  split at h
  · simp at h
  simp only [bind_ok_iff, pure_ok, Except.ok.injEq, Prod.mk.injEq] at h
  obtain ⟨⟨m, o⟩, hm, l', hl, rfl, -⟩ := h
  have hqp : q = ps := by
    unfold newPoints at hq
    split at hq
    · simp at hq
    repeat' split at hq
    all_goals simp_all
  subst hqp
  simp only [Pts.meanCenter, Pts.centroid, bind_ok_iff, pure_ok, Except.ok.injEq, Prod.mk.injEq] at hm
  obtain ⟨o', ho, m', -, -, rfl⟩ := hm
  have n1 : ∀ {x y : List K}, new1D x = .ok y → y = x := by
    intro x y hxy
    unfold new1D at hxy
    repeat' split at hxy
    all_goals simp_all
  simp only [Line.new, newLinePlane, bind_ok_iff] at hl
  obtain ⟨⟨p, v⟩, ⟨p', hp', v', hv', hif⟩, hl⟩ := hl
  have e1 := n1 ho
  have e2 := n1 hp'
  split at hif
  · simp at hif
  rename_i hlen
  simp only [bind_ok_iff] at hif
  obtain ⟨z, -, hif⟩ := hif
  split at hif
  · simp at hif
  simp only [pure_ok, Except.ok.injEq, Prod.mk.injEq] at hif hl
  obtain ⟨rfl, rfl⟩ := hif
  subst hl
  have hlen' : p'.length = v'.length := not_not.mp hlen
  rw [← hlen', e2, e1]
  simp [Pts.colMeans]

theorem meanCenter_rowDim {ps m : List (List K)} {c : List K} (h : Pts.meanCenter ps = .ok (m, c)) :
    rowDim m = rowDim ps := by
  simp only [Pts.meanCenter, Pts.centroid, bind_ok_iff, pure_ok, Except.ok.injEq, Prod.mk.injEq] at h
  obtain ⟨c', hc, m', hm, rfl, rfl⟩ := h
  have e1 : c' = Pts.colMeans ps := by
    unfold new1D at hc
    repeat' split at hc
    all_goals simp_all
  have e2 : c'.length = rowDim ps := by rw [e1]; simp [Pts.colMeans]
  cases ps with
  | nil => rw [List.mapM_nil] at hm; cases hm; rfl
  | cons p ps =>
    rw [List.mapM_cons] at hm
    simp only [bind_ok_iff, pure_ok, Except.ok.injEq] at hm
    obtain ⟨r, hr, rs, -, rfl⟩ := hm
    have hl : p.length = c'.length := e2.symm
    simp only [vsub, broadcast2, if_pos hl, Except.ok.injEq] at hr
    subst hr
    simp [rowDim, hl]

theorem ov_initialDirection [NumpyExt K] (ps : List (List K)) (h : rowDim ps = 3) :
    OnlyValueError (Cylinder.initialDirection ps) := by
  unfold Cylinder.initialDirection
  refine OnlyValueError.bind' (by ov) ?_
  rintro ⟨l, e⟩ hl
  refine OnlyValueError.bind' (by ov) ?_
  intro u hu
  have h3 : u.length = 3 := by
    unfold Vec.unit at hu
    dsimp only at hu
    split at hu
    · simp at hu
    cases hu
    rw [sdiv, List.length_map, bestFit_direction_length hl, h]
  match u, h3 with
  | [x, y, z], _ => exact ov_cartesianToSpherical x y z

theorem ov_fitFromDirection [NoOverflow K] (ps m : List (List K)) (c w : List K) :
    OnlyValueError (Cylinder.fitFromDirection ps m c w) := by
  unfold Cylinder.fitFromDirection Cylinder.fitRadius; ov

theorem ova_fitFromDirection (ps m : List (List K)) (c w : List K) :
    OnlyValueOrAttributeError (Cylinder.fitFromDirection ps m c w) := by
  unfold Cylinder.fitFromDirection Cylinder.fitRadius; ova

theorem ov_cylinderBestFit [NoOverflow K] [NumpyExt K] (ps : List (List K)) : OnlyValueError (Cylinder.bestFit ps) := by
  unfold Cylinder.bestFit
  refine OnlyValueError.bind (by ov) fun q => ?_
  split
  · ov
  rename_i hd
  split
  · ov
  refine OnlyValueError.bind (by ov) fun _ => ?_
  split
  · ov
  refine OnlyValueError.bind' (by ov) ?_
  rintro ⟨m, c⟩ hm
  refine OnlyValueError.bind ?_ fun _ => ov_fitFromDirection _ _ _ _
  unfold Cylinder.fitDirection
  refine OnlyValueError.bind (ov_initialDirection m ?_) fun _ => by ov
  rw [meanCenter_rowDim hm]
  exact not_not.mp hd

theorem ova_cylinderBestFit [NumpyExt K] (ps : List (List K)) : OnlyValueOrAttributeError (Cylinder.bestFit ps) := by
  unfold Cylinder.bestFit
  refine OnlyValueOrAttributeError.bind (by ova) fun q => ?_
  split
  · ova
  rename_i hd
  split
  · ova
  refine OnlyValueOrAttributeError.bind (by ova) fun _ => ?_
  split
  · ova
  cases hm : Pts.meanCenter q with
  | error e => intro e' he'; cases he'; obtain ⟨m, rfl⟩ := ov_meanCenter q e hm; exact ⟨m, .inl rfl⟩
  | ok mc =>
    obtain ⟨m, c⟩ := mc
    rw [ok_bind]
    refine OnlyValueOrAttributeError.bind (OnlyValueError.orAttr ?_) fun _ => ova_fitFromDirection _ _ _ _
    unfold Cylinder.fitDirection
    refine OnlyValueError.bind (ov_initialDirection m ?_) fun _ => by ov
    rw [meanCenter_rowDim hm]
    exact not_not.mp hd

/-- **C100**, the methods of `Point` and `Vector`. -/
theorem C100_vector :
    (∀ (a b : List K), OnlyValueError (Vec.fromPoints a b)) ∧
    (∀ (v : List K), OnlyValueError (Vec.unit v)) ∧
    (∀ (t : Tol K) (v : List K), OnlyValueError (Vec.isZero t v)) ∧
    (∀ (a b : List K), OnlyValueError (Vec.cross a b)) ∧
    (∀ (a b : List K), OnlyValueError (Vec.cosineSimilarity a b)) ∧
    (∀ (a b : List K), OnlyValueError (Vec.angleBetween a b)) ∧
    (∀ (a b : List K), OnlyValueError (Vec.angleSigned a b)) ∧
    (∀ (t : Tol K) (a b : List K), OnlyValueError (Vec.isPerpendicular t a b)) ∧
    (∀ (t : Tol K) (a b : List K), OnlyValueError (Vec.isParallel t a b)) ∧
    (∀ (a b c : List K), OnlyValueError (Vec.angleSigned3d a b c)) ∧
    (∀ (a b : List K), OnlyValueError (Vec.sideVector a b)) ∧
    (∀ (a b : List K), OnlyValueError (Vec.scalarProjection a b)) ∧
    (∀ (a b : List K), OnlyValueError (Vec.projectVector a b)) ∧
    (∀ (t : Tol K) (v : List K), OnlyValueError (Vec.differentDirection t v)) ∧
    (∀ (a b : List K), OnlyValueError (Pt.distancePoint a b)) ∧
    (∀ (t : Tol K) (a b : List K), OnlyValueError (arrIsClose t a b)) :=
  ⟨ov_fromPointsV, ov_unit, ov_isZero, ov_cross, ov_cosineSimilarity, ov_angleBetween, ov_angleSigned,
    ov_isPerpendicular, ov_isParallel, ov_angleSigned3d, ov_sideVector, ov_scalarProjection, ov_projectVector,
    ov_differentDirection, ov_distancePointP, ov_arrIsClose⟩

/-- **C100**, the methods of `Points`, and the functions of `measurement` and `transformation`. -/
theorem C100_points [NumpyExt K] :
    (∀ (ps : List (List K)), OnlyValueError (Pts.unique ps)) ∧
    (∀ (ps : List (List K)), OnlyValueError (Pts.centroid ps)) ∧
    (∀ (ps : List (List K)), OnlyValueError (Pts.meanCenter ps)) ∧
    (∀ (d : Int) (ps : List (List K)), OnlyValueError (setDimension2D d ps)) ∧
    (∀ (t : Option K) (ps : List (List K)), OnlyValueError (Pts.affineRank t ps)) ∧
    (∀ (t : Option K) (ps : List (List K)), OnlyValueError (Pts.areConcurrent t ps)) ∧
    (∀ (t : Option K) (ps : List (List K)), OnlyValueError (Pts.areCollinear t ps)) ∧
    (∀ (t : Option K) (ps : List (List K)), OnlyValueError (Pts.areCoplanar t ps)) ∧
    (∀ (a b c : List K), OnlyValueError (Measurement.areaTriangle a b c)) ∧
    (∀ (a b c d : List K), OnlyValueError (Measurement.volumeTetrahedron a b c d)) ∧
    (∀ (ps : List (List K)), OnlyValueError (Measurement.areaSigned ps)) ∧
    (∀ (ps : List (List K)) (o : List K) (b : List (List K)), OnlyValueError (transformCoordinates ps o b)) :=
  ⟨ov_unique, ov_centroid, ov_meanCenter, ov_setDimension2D, ov_affineRank, ov_areConcurrent, ov_areCollinear,
    ov_areCoplanar, ov_areaTriangle, ov_volumeTetrahedron, ov_areaSigned, ov_transformCoordinates⟩

/-- **C100**, `Line`: its constructors and methods (given another `Line` where an object is expected), except those of
`C100_attribute`. -/
theorem C100_line [NumpyExt K] :
    (∀ (a b : List K), OnlyValueError (Line.new a b)) ∧
    (∀ (a b : List K), OnlyValueError (Line.fromPoints a b)) ∧
    (∀ (a b : K), OnlyValueError (Line.fromSlope a b)) ∧
    (∀ (ps : List (List K)) (t : Option K) (b : Bool), OnlyValueError (Line.bestFit ps t b)) ∧
    (∀ (l : Line K) (t : K), OnlyValueError (Line.toPoint l t)) ∧
    (∀ (l : Line K) (p : List K), OnlyValueError (Line.projectPoint l p)) ∧
    (∀ (l : Line K) (p : List (List K)), OnlyValueError (Line.projectPoints l p)) ∧
    (∀ (l : Line K) (p : List K), OnlyValueError (Line.projectVector l p)) ∧
    (∀ (l : Line K) (p : List K), OnlyValueError (Line.sidePoint l p)) ∧
    (∀ (l : Line K) (p : List (List K)), OnlyValueError (Line.distancePoints l p)) ∧
    (∀ (l : Line K) (p : List (List K)), OnlyValueError (Line.transformPoints l p)) ∧
    (∀ (t : Option K) (l m : Line K), OnlyValueError (Line.isCoplanar t l (.line m))) ∧
    (∀ (l m : Line K) (c : Bool) (t : Tol K), OnlyValueError (Line.intersectLine l m c t)) :=
  ⟨ov_lineNew, ov_lineFromPoints, ov_lineFromSlope, ov_lineBestFit, ov_lineToPoint, ov_lineProjectPoint,
    ov_lineProjectPoints, ov_lineProjectVector, ov_lineSidePoint, ov_lineDistancePoints,
    ov_lineTransformPoints, ov_lineIsCoplanar, ov_lineIntersectLine⟩

/-- **C100**, `Plane`: its constructors and methods, except `intersect_plane` (given another `Plane` where an object is expected).
`Plane.best_fit` may also raise `IndexError`, but not if `full_matrices` is true (the default) or there are three points, `U`
having NumPy's shape. -/
theorem C100_plane [NumpyExt K] :
    (∀ (a b : List K), OnlyValueError (Plane.new a b)) ∧
    (∀ (t : Tol K) (p a b : List K), OnlyValueError (Plane.fromVectors t p a b)) ∧
    (∀ (t : Option K) (a b c : List K), OnlyValueError (Plane.fromPoints t a b c)) ∧
    (∀ (ps : List (List K)) (t : Option K) (b : Bool), OnlyValueOrIndexError (Plane.bestFit ps t b)) ∧
    (∀ (ps : List (List K)) (t : Option K) (b : Bool),
      (∀ A : List (List K), rowDim (NumpyExt.svd b A).1 = if b then A.length else min A.length (rowDim A)) →
      b = true ∨ 3 ≤ ps.length → OnlyValueError (Plane.bestFit ps t b)) ∧
    (∀ (P : Plane K), OnlyValueError (Plane.cartesian P)) ∧
    (∀ (P : Plane K) (p : List K), OnlyValueError (Plane.projectPoint P p)) ∧
    (∀ (P : Plane K) (p : List (List K)), OnlyValueError (Plane.projectPoints P p)) ∧
    (∀ (P : Plane K) (p : List K), OnlyValueError (Plane.projectVector P p)) ∧
    (∀ (t : Tol K) (P : Plane K) (l : Line K), OnlyValueError (Plane.projectLine t P l)) ∧
    (∀ (P : Plane K) (p : List K), OnlyValueError (Plane.distancePointSigned P p)) ∧
    (∀ (P : Plane K) (p : List (List K)), OnlyValueError (Plane.distancePointsSigned P p)) ∧
    (∀ (P : Plane K) (p : List K), OnlyValueError (Plane.distancePoint P p)) ∧
    (∀ (P : Plane K) (p : List (List K)), OnlyValueError (Plane.distancePoints P p)) ∧
    (∀ (P : Plane K) (p : List K), OnlyValueError (Plane.sidePoint P p)) ∧
    (∀ (t : Tol K) (P : Plane K) (p : List K), OnlyValueError (Plane.containsPoint t P p)) ∧
    (∀ (P : Plane K) (p : List (List K)), OnlyValueError (Plane.sumSquares P p)) ∧
    (∀ (t : Tol K) (P Q : Plane K), OnlyValueError (Plane.isClose t P (.plane Q))) ∧
    (∀ (t : Tol K) (P : Plane K) (l : Line K), OnlyValueError (Plane.intersectLine t P l)) ∧
    (∀ (P : Plane K) (x y : List K), OnlyValueError (Plane.toMesh P x y)) ∧
    (∀ (P : Plane K) (x y : List K), OnlyValueError (Plane.toPoints P x y)) :=
  ⟨ov_planeNew, ov_planeFromVectors, ov_planeFromPoints, ovi_planeBestFit, ov_planeBestFit, ov_planeCartesian,
    ov_planeProjectPoint, ov_planeProjectPoints, ov_planeProjectVector, ov_planeProjectLine,
    ov_planeDistancePointSigned, ov_planeDistancePointsSigned, ov_planeDistancePoint, ov_planeDistancePoints,
    ov_planeSidePoint, ov_planeContainsPoint, ov_planeSumSquares, ov_planeIsClose, ov_planeIntersectLine,
    ov_planeToMesh, ov_planeToPoints⟩

/-- **C100**, `Circle`: its constructors and methods. -/
theorem C100_circle [NumpyExt K] :
    (∀ (p : List K) (r : K), OnlyValueError (Circle.new p r)) ∧
    (∀ (t : Option K) (a b c : List K), OnlyValueError (Circle.fromPoints t a b c)) ∧
    (∀ (ps : List (List K)), OnlyValueError (Circle.bestFit ps)) ∧
    (∀ (s : Circle K) (p : List K), OnlyValueError (Circle.distancePoint s p)) ∧
    (∀ (t : Tol K) (s : Circle K) (p : List K), OnlyValueError (Circle.containsPoint t s p)) ∧
    (∀ (s : Circle K) (p : List K), OnlyValueError (Circle.projectPoint s p)) ∧
    (∀ (s t : Circle K), OnlyValueError (Circle.intersectCircle s t)) ∧
    (∀ (s : Circle K) (l : Line K), OnlyValueError (Circle.intersectLine s l)) :=
  ⟨ov_circleNew, ov_circleFromPoints, ov_circleBestFit, ov_circleDistancePoint, ov_circleContainsPoint,
    ov_circleProjectPoint, ov_circleIntersectCircle, ov_circleIntersectLine⟩

/-- **C100**, `Sphere`: its constructors and methods. -/
theorem C100_sphere [NumpyExt K] :
    (∀ (p : List K) (r : K), OnlyValueError (Sphere.new p r)) ∧
    (∀ (ps : List (List K)), OnlyValueError (Sphere.bestFit ps)) ∧
    (∀ (s : Sphere K) (p : List K), OnlyValueError (Sphere.distancePoint s p)) ∧
    (∀ (t : Tol K) (s : Sphere K) (p : List K), OnlyValueError (Sphere.containsPoint t s p)) ∧
    (∀ (s : Sphere K) (p : List K), OnlyValueError (Sphere.projectPoint s p)) ∧
    (∀ (s : Sphere K) (l : Line K), OnlyValueError (Sphere.intersectLine s l)) ∧
    (∀ (s : Sphere K) (n : Nat), OnlyValueError (Sphere.toPoints s n)) :=
  ⟨ov_sphereNew, ov_sphereBestFit, ov_sphereDistancePoint, ov_sphereContainsPoint, ov_sphereProjectPoint,
    ov_sphereIntersectLine, ov_sphereToPoints⟩

/-- **C100**, `Cylinder`: its constructors (for its methods see `C100_attribute`). -/
theorem C100_cylinder :
    (∀ (p v : List K) (r : K), OnlyValueError (Cylinder.new p v r)) ∧
    (∀ (a b : List K) (r : K), OnlyValueError (Cylinder.fromPoints a b r)) :=
  ⟨ov_cylinderNew, ov_cylinderFromPoints⟩

/-- **C100**, methods that call a method of `Point` or `Vector` on the result of array arithmetic: they return, raise `ValueError`,
or raise `AttributeError`. -/
theorem C100_attribute [NumpyExt K] :
    (∀ (l : Line K) (p : List K), OnlyValueOrAttributeError (Line.distancePoint l p)) ∧
    (∀ (t : Tol K) (l : Line K) (p : List K), OnlyValueOrAttributeError (Line.containsPoint t l p)) ∧
    (∀ (l : Line K) (p : List (List K)), OnlyValueOrAttributeError (Line.sumSquares l p)) ∧
    (∀ (t : Tol K) (l m : Line K), OnlyValueOrAttributeError (Line.isClose t l (.line m))) ∧
    (∀ (l m : Line K), OnlyValueOrAttributeError (Line.distanceLine l m)) ∧
    (∀ (ps : List (List K)), OnlyValueOrAttributeError (Cylinder.bestFit ps)) ∧
    (∀ (c : Cylinder K) (p : List K), OnlyValueOrAttributeError (Cylinder.isPointWithin c p)) ∧
    (∀ (c : Cylinder K) (l : Line K) (n : Option Int) (i : Bool), OnlyValueOrAttributeError (Cylinder.intersectLine c l n i)) ∧
    (∀ (c : Cylinder K) (n m : Nat), OnlyValueOrAttributeError (Cylinder.toMesh c n m)) ∧
    (∀ (c : Cylinder K) (n m : Nat), OnlyValueOrAttributeError (Cylinder.toPoints c n m)) :=
  ⟨ova_lineDistancePoint, ova_lineContainsPoint, ova_lineSumSquares, ova_lineIsClose, ova_lineDistanceLine,
    ova_cylinderBestFit, ova_cylinderIsPointWithin, ova_cylinderIntersectLine, ova_cylinderToMesh, ova_cylinderToPoints⟩

/-- **C100**: without infinities and NaN (`NoOverflow`: exact, rounded and integer arithmetic) these methods raise `ValueError`
only. -/
theorem C100_no_attribute [NoOverflow K] [NumpyExt K] :
    (∀ (l : Line K) (p : List K), OnlyValueError (Line.distancePoint l p)) ∧
    (∀ (t : Tol K) (l : Line K) (p : List K), OnlyValueError (Line.containsPoint t l p)) ∧
    (∀ (l : Line K) (p : List (List K)), OnlyValueError (Line.sumSquares l p)) ∧
    (∀ (t : Tol K) (l m : Line K), OnlyValueError (Line.isClose t l (.line m))) ∧
    (∀ (l m : Line K), OnlyValueError (Line.distanceLine l m)) ∧
    (∀ (ps : List (List K)), OnlyValueError (Cylinder.bestFit ps)) ∧
    (∀ (c : Cylinder K) (p : List K), OnlyValueError (Cylinder.isPointWithin c p)) ∧
    (∀ (c : Cylinder K) (l : Line K) (n : Option Int) (i : Bool), OnlyValueError (Cylinder.intersectLine c l n i)) ∧
    (∀ (c : Cylinder K) (n m : Nat), OnlyValueError (Cylinder.toMesh c n m)) ∧
    (∀ (c : Cylinder K) (n m : Nat), OnlyValueError (Cylinder.toPoints c n m)) :=
  ⟨ov_lineDistancePoint, ov_lineContainsPoint, ov_lineSumSquares, ov_lineIsClose, ov_lineDistanceLine,
    ov_cylinderBestFit, ov_cylinderIsPointWithin, ov_cylinderIntersectLine, ov_cylinderToMesh, ov_cylinderToPoints⟩

/-- **C100**: `line.distance_point` raises `AttributeError` exactly when the projection is returned with a coordinate that is
infinite or NaN. -/
theorem C100_distance_point_attribute (l : Line K) (p : List K) :
    RaisesAttributeError (Line.distancePoint l p) ↔
      ∃ q, Line.projectPoint l p = .ok q ∧ ∃ x ∈ q, PyNum.isFinite x = false := by
  constructor
  · rintro ⟨m, h⟩
    unfold Line.distancePoint at h
    cases hq : Line.projectPoint l p with
    | error e =>
      rw [hq] at h
      obtain ⟨m', rfl⟩ := ov_lineProjectPoint l p e hq
      cases h
    | ok q =>
      refine ⟨q, rfl, ?_⟩
      rw [hq, ok_bind] at h
      by_contra hc
      push Not at hc
      have hw : wrapped "distance_point" q = .ok q := by
        unfold wrapped
        exact if_pos (List.all_eq_true.mpr fun x hx => by simpa using hc x hx)
      rw [hw, ok_bind] at h
      obtain ⟨m', h'⟩ := ov_distancePointP q p _ h
      cases h'
  · rintro ⟨q, hq, x, hx, hf⟩
    refine ⟨"'numpy.ndarray' object has no attribute 'distance_point'", ?_⟩
    unfold Line.distancePoint wrapped
    rw [hq, ok_bind, if_neg]
    · rfl
    · intro h
      have := List.all_eq_true.mp h x hx
      simp [hf] at this

instance : NoOverflow ℝ := ⟨fun _ => rfl⟩

theorem noOverflow_rounded (fl : Arith) : @NoOverflow ℝ (rounded fl) := @NoOverflow.mk ℝ (rounded fl) fun _ => rfl

/-- **C100**, `LineSegment` and `Triangle`: their constructors and methods. -/
theorem C100_segment_triangle [NumpyExt K] :
    (∀ (a b : List K), OnlyValueError (LineSegment.new a b)) ∧
    (∀ (t : Tol K) (s : LineSegment K) (p : List K), OnlyValueError (LineSegment.containsPoint t s p)) ∧
    (∀ (s t : LineSegment K) (c : Bool) (tol : Tol K), OnlyValueError (LineSegment.intersectLineSegment s t c tol)) ∧
    (∀ (a b c : List K), OnlyValueError (Triangle.new a b c)) ∧
    (∀ (t : Triangle K), OnlyValueError (Triangle.normal t)) ∧
    (∀ (t : Triangle K), OnlyValueError (Triangle.area t)) ∧
    (∀ (t : Triangle K) (v : String), OnlyValueError (Triangle.point t v)) ∧
    (∀ (t : Triangle K) (v : String), OnlyValueError (Triangle.line t v)) ∧
    (∀ (t : Triangle K) (v : String), OnlyValueError (Triangle.length t v)) ∧
    (∀ (t : Triangle K), OnlyValueError (Triangle.perimeter t)) ∧
    (∀ (t : Triangle K) (v : String), OnlyValueError (Triangle.angle t v)) ∧
    (∀ (t : Triangle K), OnlyValueError (Triangle.centroid t)) ∧
    (∀ (t : Triangle K) (v : String), OnlyValueError (Triangle.altitude t v)) ∧
    (∀ (t : Triangle K) (c : Bool) (tol : Tol K), OnlyValueError (Triangle.orthocenter t c tol)) ∧
    (∀ (tol : Tol K) (t : Triangle K), OnlyValueError (Triangle.classify tol t)) ∧
    (∀ (tol : Tol K) (t : Triangle K), OnlyValueError (Triangle.isRight tol t)) :=
  ⟨ov_segmentNew, ov_segmentContainsPoint, ov_segmentIntersect, ov_triangleNew, ov_triangleNormal,
    ov_triangleArea, ov_trianglePoint, ov_triangleLine, ov_triangleLength, ov_trianglePerimeter, ov_triangleAngle,
    ov_triangleCentroid, ov_triangleAltitude, ov_triangleOrthocenter, ov_triangleClassify, ov_triangleIsRight⟩

/-- **C100**, array constructors: `Point(a)`, `Vector(a)` and `Points(a)` of an array of any shape. -/
theorem C100_arrays :
    (∀ (a : NDArray K), OnlyValueError (newArray1D a)) ∧ (∀ (a : NDArray K), OnlyValueError (newArray2D a)) ∧
    (∀ (d : Int) (v : List K), OnlyValueError (setDimension d v)) := by
  refine ⟨fun a => ?_, fun a => ?_, ov_setDimension⟩
  · unfold newArray1D newArray; ov
  · unfold newArray2D newArray; ov

/-- **C100**, `is_close` of a line or a plane: `TypeError` exactly when the argument has another type; otherwise it
returns or raises `ValueError` (or `AttributeError` for lines, see `C100_attribute`). -/
theorem C100_is_close_type (t : Tol K) (o : Obj K) :
    (∀ l : Line K, ((∀ m, o ≠ .line m) → RaisesTypeError (Line.isClose t l o)) ∧
      ((∃ m, o = .line m) → OnlyValueOrAttributeError (Line.isClose t l o))) ∧
    (∀ P : Plane K, ((∀ Q, o ≠ .plane Q) → RaisesTypeError (Plane.isClose t P o)) ∧
      ((∃ Q, o = .plane Q) → OnlyValueError (Plane.isClose t P o))) := by
  refine ⟨fun l => ⟨fun h => ?_, ?_⟩, fun P => ⟨fun h => ?_, ?_⟩⟩
  · cases o with
    | line m => exact absurd rfl (h m)
    | _ => exact ⟨_, rfl⟩
  · rintro ⟨m, rfl⟩; exact ova_lineIsClose t l m
  · cases o with
    | plane m => exact absurd rfl (h m)
    | _ => exact ⟨_, rfl⟩
  · rintro ⟨m, rfl⟩; ov

/-- **C100**, `line.is_coplanar`: `TypeError` exactly when the argument is not a line. -/
theorem C100_is_coplanar_type [NumpyExt K] (t : Option K) (l : Line K) (o : Obj K) :
    ((∀ m, o ≠ .line m) → RaisesTypeError (Line.isCoplanar t l o)) ∧
    ((∃ m, o = .line m) → OnlyValueError (Line.isCoplanar t l o)) := by
  refine ⟨fun h => ?_, ?_⟩
  · cases o with
    | line m => exact absurd rfl (h m)
    | _ => exact ⟨_, rfl⟩
  · rintro ⟨m, rfl⟩; ov

/-- **C100**, `plane.intersect_plane`: it returns, raises `ValueError`, or passes on what `np.linalg.solve` raises on the
5 x 5 system. -/
theorem C100_intersect_plane [NumpyExt K] (t : Tol K) (P Q : Plane K) (e : Err)
    (h : Plane.intersectPlane t P Q = .error e) :
    (∃ m, e = .valueError m) ∨ ∃ (A : List (List K)) (b : List K), A.length = 5 ∧ b.length = 5 ∧
      NumpyExt.solve A b = .error e := by
  revert h
  unfold Plane.intersectPlane
  intro h
  by_contra hc
  push Not at hc
  obtain ⟨hc1, hc2⟩ := hc
  revert h
  cases h1 : Vec.isParallel t P.normal Q.normal with
  | error e1 =>
    intro h
    obtain ⟨m, rfl⟩ := ov_isParallel _ _ _ _ h1
    cases h
    exact hc1 m rfl
  | ok p =>
    rw [ok_bind]
    split
    · intro h; cases h; exact hc1 _ rfl
    split
    · cases h2 : dot P.point P.normal with
      | error e1 =>
        intro h
        obtain ⟨m, rfl⟩ := ov_dot _ _ _ h2
        cases h
        exact hc1 m rfl
      | ok d1 =>
      cases h3 : dot Q.point Q.normal with
      | error e1 =>
        intro h
        obtain ⟨m, rfl⟩ := ov_dot _ _ _ h3
        cases h
        exact hc1 m rfl
      | ok d2 =>
      simp only [ok_bind]
      generalize hA : ([[two, zero, zero, _, _], _, _, _, _] : List (List K)) = A
      generalize hB : ([zero, zero, zero, d1, d2] : List K) = B
      cases h4 : NumpyExt.solve A B with
      | error e1 =>
        intro h
        cases h
        exact hc2 A B (by rw [← hA]; rfl) (by rw [← hB]; rfl) h4
      | ok x =>
        rw [ok_bind]
        intro h
        obtain ⟨m, rfl⟩ := (by ov : OnlyValueError (do
          let p ← new1D (x.take 3)
          let d ← Vec.cross P.normal Q.normal
          Line.new p d)) e h
        exact hc1 m rfl
    · intro h; cases h; exact hc1 _ rfl

/-- The statements are about calls that do raise: `Point([])`, the unit vector of the zero vector, and `is_close` of a line
with a plane. -/
example : RaisesValueError (new1D ([] : List ℝ)) ∧ RaisesValueError (Vec.unit ([0] : List ℝ)) ∧
    RaisesTypeError (Line.isClose Tol.default ⟨[0], [1]⟩ (.plane ⟨[0], [(1 : ℝ)]⟩)) := by
  refine ⟨⟨_, rfl⟩, ?_, ⟨_, rfl⟩⟩
  refine ⟨"The magnitude must not be zero.", ?_⟩
  simp [Vec.unit, Vec.norm, normv, toFloats, dotv_real, sumL_real, PyNum.eq, zero, PyNum.toFloat, PyNum.sqrt, PyNum.ofInt]

end SkSpatial
