import Verif.Spec.Raises
import Verif.Model.Cylinder
import Verif.Model.LineSegment
import Verif.Model.Triangle
import Verif.Model.Sphere
import Verif.Model.Measurement
import Verif.Lemmas.Bridge
/-! # Calculus of raised exceptions (for C99, C100) -/

namespace SkSpatial
variable {K : Type} [PyNum K] {α β : Type}

namespace OnlyValueError

theorem ok (a : α) : OnlyValueError (.ok a : Res α) := by intro e h; cases h

theorem pure' (a : α) : OnlyValueError (pure a : Res α) := ok a

theorem value (m : String) : OnlyValueError (.error (.valueError m) : Res α) := by
  intro e h; cases h; exact ⟨m, rfl⟩

theorem bind {r : Res α} {f : α → Res β} (hr : OnlyValueError r) (hf : ∀ a, OnlyValueError (f a)) :
    OnlyValueError (r >>= f) := by
  intro e h
  cases r with
  | error e' => cases h; exact hr _ rfl
  | ok a => exact hf a e h

theorem bind' {r : Res α} {f : α → Res β} (hr : OnlyValueError r)
    (hf : ∀ a, r = .ok a → OnlyValueError (f a)) : OnlyValueError (r >>= f) := by
  intro e h
  cases r with
  | error e' => cases h; exact hr _ rfl
  | ok a => exact hf a rfl e h

theorem ite {c : Prop} [Decidable c] {x y : Res α} (hx : OnlyValueError x) (hy : OnlyValueError y) :
    OnlyValueError (if c then x else y) := by
  split
  · exact hx
  · exact hy

theorem mapM {f : α → Res β} (hf : ∀ a, OnlyValueError (f a)) (l : List α) :
    OnlyValueError (l.mapM f) := by
  induction l with
  | nil => exact ok _
  | cons x xs ih =>
    rw [List.mapM_cons]
    exact bind (hf x) fun _ => bind ih fun _ => ok _

end OnlyValueError

/-- A call that cannot return, and raises nothing else, raises `ValueError`. -/
theorem RaisesValueError.of_only {r : Res α} (h : OnlyValueError r) (hn : ∀ a, r ≠ .ok a) :
    RaisesValueError r := by
  cases r with
  | ok a => exact absurd rfl (hn a)
  | error e => obtain ⟨m, rfl⟩ := h e rfl; exact ⟨m, rfl⟩


/-- One step of a proof that a program raises `ValueError` only: follow the program text. -/
syntax "ov_step" : tactic
macro_rules
  | `(tactic| ov_step) => `(tactic| first
    | with_reducible exact OnlyValueError.ok _
    | with_reducible exact OnlyValueError.pure' _
    | with_reducible exact OnlyValueError.value _
    | with_reducible assumption
    | with_reducible apply OnlyValueError.ite
    | with_reducible refine OnlyValueError.mapM (fun _ => ?_) _
    | with_reducible refine OnlyValueError.bind ?_ fun _ => ?_
    | (split <;> try dsimp only))
macro "ov" : tactic => `(tactic| repeat' ov_step)

theorem ov_new1D (l : List K) : OnlyValueError (new1D l) := by unfold new1D; ov
macro_rules | `(tactic| ov_step) => `(tactic| with_reducible apply ov_new1D)
theorem ov_newPoints (l : List (List K)) : OnlyValueError (newPoints l) := by unfold newPoints; ov
macro_rules | `(tactic| ov_step) => `(tactic| with_reducible apply ov_newPoints)
theorem ov_broadcast2 (f : K → K → K) (a b : List K) : OnlyValueError (broadcast2 f a b) := by
  unfold broadcast2; ov
theorem ov_vadd (a b : List K) : OnlyValueError (vadd a b) := ov_broadcast2 _ _ _
macro_rules | `(tactic| ov_step) => `(tactic| with_reducible apply ov_vadd)
theorem ov_vsub (a b : List K) : OnlyValueError (vsub a b) := ov_broadcast2 _ _ _
macro_rules | `(tactic| ov_step) => `(tactic| with_reducible apply ov_vsub)
theorem ov_dot (a b : List K) : OnlyValueError (dot a b) := by unfold dot; ov
macro_rules | `(tactic| ov_step) => `(tactic| with_reducible apply ov_dot)
theorem ov_cross3 (a b : List K) : OnlyValueError (cross3 a b) := by unfold cross3; ov
macro_rules | `(tactic| ov_step) => `(tactic| with_reducible apply ov_cross3)
theorem ov_wrapped [NoOverflow K] (m : String) (l : List K) : OnlyValueError (wrapped m l) := by
  unfold wrapped
  rw [if_pos (List.all_eq_true.mpr fun x _ => NoOverflow.finite x)]
  exact .ok _
macro_rules | `(tactic| ov_step) => `(tactic| with_reducible apply ov_wrapped)
theorem ov_isclose (t : Tol K) (a b : K) : OnlyValueError (isclose t a b) := by
  unfold isclose; ov
macro_rules | `(tactic| ov_step) => `(tactic| with_reducible apply ov_isclose)
theorem ov_setDimension (d : Int) (v : List K) : OnlyValueError (setDimension d v) := by
  unfold setDimension; ov
macro_rules | `(tactic| ov_step) => `(tactic| with_reducible apply ov_setDimension)
theorem ov_checkRows (l : List (List K)) : OnlyValueError (checkRows l) := by unfold checkRows; ov
macro_rules | `(tactic| ov_step) => `(tactic| with_reducible apply ov_checkRows)
theorem ov_mathSqrt (x : K) : OnlyValueError (mathSqrt x) := by unfold mathSqrt; ov
macro_rules | `(tactic| ov_step) => `(tactic| with_reducible apply ov_mathSqrt)
theorem ov_mathAcos (x : K) : OnlyValueError (mathAcos x) := by unfold mathAcos; ov
macro_rules | `(tactic| ov_step) => `(tactic| with_reducible apply ov_mathAcos)
theorem ov_intSign (x : K) : OnlyValueError (intSign x) := by unfold intSign; ov
macro_rules | `(tactic| ov_step) => `(tactic| with_reducible apply ov_intSign)
theorem ov_broadcastPairs (a b : List K) : OnlyValueError (broadcastPairs a b) := by
  unfold broadcastPairs; ov
macro_rules | `(tactic| ov_step) => `(tactic| with_reducible apply ov_broadcastPairs)

theorem ov_fromPointsV (a b : List K) : OnlyValueError (Vec.fromPoints a b) := by
  unfold Vec.fromPoints; ov
macro_rules | `(tactic| ov_step) => `(tactic| with_reducible apply ov_fromPointsV)
theorem ov_unit (v : List K) : OnlyValueError (Vec.unit v) := by
  unfold Vec.unit; ov
macro_rules | `(tactic| ov_step) => `(tactic| with_reducible apply ov_unit)
theorem ov_isZero (t : Tol K) (v : List K) : OnlyValueError (Vec.isZero t v) := by
  unfold Vec.isZero; ov
macro_rules | `(tactic| ov_step) => `(tactic| with_reducible apply ov_isZero)
theorem ov_cross (a b : List K) : OnlyValueError (Vec.cross a b) := by
  unfold Vec.cross; ov
macro_rules | `(tactic| ov_step) => `(tactic| with_reducible apply ov_cross)
theorem ov_cosineSimilarity (a b : List K) : OnlyValueError (Vec.cosineSimilarity a b) := by
  unfold Vec.cosineSimilarity; ov
macro_rules | `(tactic| ov_step) => `(tactic| with_reducible apply ov_cosineSimilarity)
theorem ov_angleBetween (a b : List K) : OnlyValueError (Vec.angleBetween a b) := by
  unfold Vec.angleBetween; ov
macro_rules | `(tactic| ov_step) => `(tactic| with_reducible apply ov_angleBetween)
theorem ov_angleSigned (a b : List K) : OnlyValueError (Vec.angleSigned a b) := by
  unfold Vec.angleSigned; ov
macro_rules | `(tactic| ov_step) => `(tactic| with_reducible apply ov_angleSigned)
theorem ov_isPerpendicular (t : Tol K) (a b : List K) : OnlyValueError (Vec.isPerpendicular t a b) := by
  unfold Vec.isPerpendicular; ov
macro_rules | `(tactic| ov_step) => `(tactic| with_reducible apply ov_isPerpendicular)
theorem ov_isParallel (t : Tol K) (a b : List K) : OnlyValueError (Vec.isParallel t a b) := by
  unfold Vec.isParallel; ov
macro_rules | `(tactic| ov_step) => `(tactic| with_reducible apply ov_isParallel)
theorem ov_angleSigned3d (a b c : List K) : OnlyValueError (Vec.angleSigned3d a b c) := by
  unfold Vec.angleSigned3d; ov
macro_rules | `(tactic| ov_step) => `(tactic| with_reducible apply ov_angleSigned3d)
theorem ov_sideVector (a b : List K) : OnlyValueError (Vec.sideVector a b) := by
  unfold Vec.sideVector; ov
macro_rules | `(tactic| ov_step) => `(tactic| with_reducible apply ov_sideVector)
theorem ov_scalarProjection (a b : List K) : OnlyValueError (Vec.scalarProjection a b) := by
  unfold Vec.scalarProjection; ov
macro_rules | `(tactic| ov_step) => `(tactic| with_reducible apply ov_scalarProjection)
theorem ov_projectVector (a b : List K) : OnlyValueError (Vec.projectVector a b) := by
  unfold Vec.projectVector; ov
macro_rules | `(tactic| ov_step) => `(tactic| with_reducible apply ov_projectVector)
theorem ov_differentDirection (t : Tol K) (v : List K) : OnlyValueError (Vec.differentDirection t v) := by
  unfold Vec.differentDirection; ov
macro_rules | `(tactic| ov_step) => `(tactic| with_reducible apply ov_differentDirection)
theorem ov_distancePointP (a b : List K) : OnlyValueError (Pt.distancePoint a b) := by
  unfold Pt.distancePoint; ov
macro_rules | `(tactic| ov_step) => `(tactic| with_reducible apply ov_distancePointP)
theorem ov_arrIsClose (t : Tol K) (a b : List K) : OnlyValueError (arrIsClose t a b) := by
  unfold arrIsClose; ov
macro_rules | `(tactic| ov_step) => `(tactic| with_reducible apply ov_arrIsClose)
theorem ov_setDimension2D (d : Int) (ps : List (List K)) : OnlyValueError (setDimension2D d ps) := by
  unfold setDimension2D; ov
macro_rules | `(tactic| ov_step) => `(tactic| with_reducible apply ov_setDimension2D)
theorem ov_unique (ps : List (List K)) : OnlyValueError (Pts.unique ps) := by
  unfold Pts.unique; ov
macro_rules | `(tactic| ov_step) => `(tactic| with_reducible apply ov_unique)
theorem ov_centroid (ps : List (List K)) : OnlyValueError (Pts.centroid ps) := by
  unfold Pts.centroid; ov
macro_rules | `(tactic| ov_step) => `(tactic| with_reducible apply ov_centroid)
theorem ov_meanCenter (ps : List (List K)) : OnlyValueError (Pts.meanCenter ps) := by
  unfold Pts.meanCenter; ov
macro_rules | `(tactic| ov_step) => `(tactic| with_reducible apply ov_meanCenter)
theorem ov_affineRank [NumpyExt K] (t : Option K) (ps : List (List K)) : OnlyValueError (Pts.affineRank t ps) := by
  unfold Pts.affineRank; ov
macro_rules | `(tactic| ov_step) => `(tactic| with_reducible apply ov_affineRank)
theorem ov_areConcurrent [NumpyExt K] (t : Option K) (ps : List (List K)) : OnlyValueError (Pts.areConcurrent t ps) := by
  unfold Pts.areConcurrent; ov
macro_rules | `(tactic| ov_step) => `(tactic| with_reducible apply ov_areConcurrent)
theorem ov_areCollinear [NumpyExt K] (t : Option K) (ps : List (List K)) : OnlyValueError (Pts.areCollinear t ps) := by
  unfold Pts.areCollinear; ov
macro_rules | `(tactic| ov_step) => `(tactic| with_reducible apply ov_areCollinear)
theorem ov_areCoplanar [NumpyExt K] (t : Option K) (ps : List (List K)) : OnlyValueError (Pts.areCoplanar t ps) := by
  unfold Pts.areCoplanar; ov
macro_rules | `(tactic| ov_step) => `(tactic| with_reducible apply ov_areCoplanar)
theorem ov_areaTriangle (a b c : List K) : OnlyValueError (Measurement.areaTriangle a b c) := by
  unfold Measurement.areaTriangle; ov
macro_rules | `(tactic| ov_step) => `(tactic| with_reducible apply ov_areaTriangle)
theorem ov_volumeTetrahedron (a b c d : List K) : OnlyValueError (Measurement.volumeTetrahedron a b c d) := by
  unfold Measurement.volumeTetrahedron; ov
macro_rules | `(tactic| ov_step) => `(tactic| with_reducible apply ov_volumeTetrahedron)
theorem ov_areaSigned (ps : List (List K)) : OnlyValueError (Measurement.areaSigned ps) := by
  unfold Measurement.areaSigned; ov
macro_rules | `(tactic| ov_step) => `(tactic| with_reducible apply ov_areaSigned)
theorem ov_solveQuadratic (a b c : K) (n : Option Int) : OnlyValueError (solveQuadratic a b c n) := by
  unfold solveQuadratic; ov
macro_rules | `(tactic| ov_step) => `(tactic| with_reducible apply ov_solveQuadratic)
theorem ov_transformCoordinates (ps : List (List K)) (o : List K) (b : List (List K)) : OnlyValueError (transformCoordinates ps o b) := by
  unfold transformCoordinates; ov
macro_rules | `(tactic| ov_step) => `(tactic| with_reducible apply ov_transformCoordinates)
theorem ov_newLinePlane (a b : List K) : OnlyValueError (newLinePlane a b) := by
  unfold newLinePlane; ov
macro_rules | `(tactic| ov_step) => `(tactic| with_reducible apply ov_newLinePlane)
theorem ov_lineNew (a b : List K) : OnlyValueError (Line.new a b) := by
  unfold Line.new; ov
macro_rules | `(tactic| ov_step) => `(tactic| with_reducible apply ov_lineNew)
theorem ov_lineFromPoints (a b : List K) : OnlyValueError (Line.fromPoints a b) := by
  unfold Line.fromPoints; ov
macro_rules | `(tactic| ov_step) => `(tactic| with_reducible apply ov_lineFromPoints)
theorem ov_lineFromSlope (a b : K) : OnlyValueError (Line.fromSlope a b) := by
  unfold Line.fromSlope; ov
macro_rules | `(tactic| ov_step) => `(tactic| with_reducible apply ov_lineFromSlope)
theorem ov_lineToPoint (l : Line K) (t : K) : OnlyValueError (Line.toPoint l t) := by
  unfold Line.toPoint; ov
macro_rules | `(tactic| ov_step) => `(tactic| with_reducible apply ov_lineToPoint)
theorem ov_lineProjectPoint (l : Line K) (p : List K) : OnlyValueError (Line.projectPoint l p) := by
  unfold Line.projectPoint; ov
macro_rules | `(tactic| ov_step) => `(tactic| with_reducible apply ov_lineProjectPoint)
theorem ov_lineProjectPoints (l : Line K) (p : List (List K)) : OnlyValueError (Line.projectPoints l p) := by
  unfold Line.projectPoints; ov
macro_rules | `(tactic| ov_step) => `(tactic| with_reducible apply ov_lineProjectPoints)
theorem ov_lineProjectVector (l : Line K) (p : List K) : OnlyValueError (Line.projectVector l p) := by
  unfold Line.projectVector; ov
macro_rules | `(tactic| ov_step) => `(tactic| with_reducible apply ov_lineProjectVector)
theorem ov_lineSidePoint (l : Line K) (p : List K) : OnlyValueError (Line.sidePoint l p) := by
  unfold Line.sidePoint; ov
macro_rules | `(tactic| ov_step) => `(tactic| with_reducible apply ov_lineSidePoint)
theorem ov_lineDistancePoint [NoOverflow K] (l : Line K) (p : List K) : OnlyValueError (Line.distancePoint l p) := by
  unfold Line.distancePoint; ov
macro_rules | `(tactic| ov_step) => `(tactic| with_reducible apply ov_lineDistancePoint)
theorem ov_lineDistancePoints (l : Line K) (p : List (List K)) : OnlyValueError (Line.distancePoints l p) := by
  unfold Line.distancePoints; ov
macro_rules | `(tactic| ov_step) => `(tactic| with_reducible apply ov_lineDistancePoints)
theorem ov_lineContainsPoint [NoOverflow K] (t : Tol K) (l : Line K) (p : List K) : OnlyValueError (Line.containsPoint t l p) := by
  unfold Line.containsPoint containsPointFn; ov
macro_rules | `(tactic| ov_step) => `(tactic| with_reducible apply ov_lineContainsPoint)
theorem ov_lineSumSquares [NoOverflow K] (l : Line K) (p : List (List K)) : OnlyValueError (Line.sumSquares l p) := by
  unfold Line.sumSquares sumSquaresFn; ov
macro_rules | `(tactic| ov_step) => `(tactic| with_reducible apply ov_lineSumSquares)
theorem ov_lineIsClose [NoOverflow K] (t : Tol K) (l m : Line K) : OnlyValueError (Line.isClose t l (.line m)) := by
  unfold Line.isClose; ov
macro_rules | `(tactic| ov_step) => `(tactic| with_reducible apply ov_lineIsClose)
theorem ov_lineIsCoplanar [NumpyExt K] (t : Option K) (l m : Line K) : OnlyValueError (Line.isCoplanar t l (.line m)) := by
  unfold Line.isCoplanar; ov
macro_rules | `(tactic| ov_step) => `(tactic| with_reducible apply ov_lineIsCoplanar)
theorem ov_lineDistanceLine [NoOverflow K] [NumpyExt K] (l m : Line K) : OnlyValueError (Line.distanceLine l m) := by
  unfold Line.distanceLine; ov
macro_rules | `(tactic| ov_step) => `(tactic| with_reducible apply ov_lineDistanceLine)
theorem ov_lineIntersectLine [NumpyExt K] (l m : Line K) (c : Bool) (t : Tol K) : OnlyValueError (Line.intersectLine l m c t) := by
  unfold Line.intersectLine; ov
macro_rules | `(tactic| ov_step) => `(tactic| with_reducible apply ov_lineIntersectLine)
theorem ov_lineBestFit [NumpyExt K] (ps : List (List K)) (t : Option K) (b : Bool) : OnlyValueError (Line.bestFit ps t b) := by
  unfold Line.bestFit; ov
macro_rules | `(tactic| ov_step) => `(tactic| with_reducible apply ov_lineBestFit)
theorem ov_lineTransformPoints (l : Line K) (p : List (List K)) : OnlyValueError (Line.transformPoints l p) := by
  unfold Line.transformPoints; ov
macro_rules | `(tactic| ov_step) => `(tactic| with_reducible apply ov_lineTransformPoints)
theorem ov_planeNew (a b : List K) : OnlyValueError (Plane.new a b) := by
  unfold Plane.new; ov
macro_rules | `(tactic| ov_step) => `(tactic| with_reducible apply ov_planeNew)
theorem ov_planeFromVectors (t : Tol K) (p a b : List K) : OnlyValueError (Plane.fromVectors t p a b) := by
  unfold Plane.fromVectors; ov
macro_rules | `(tactic| ov_step) => `(tactic| with_reducible apply ov_planeFromVectors)
theorem ov_planeFromPoints [NumpyExt K] (t : Option K) (a b c : List K) : OnlyValueError (Plane.fromPoints t a b c) := by
  unfold Plane.fromPoints; ov
macro_rules | `(tactic| ov_step) => `(tactic| with_reducible apply ov_planeFromPoints)
theorem ov_planeCartesian (P : Plane K) : OnlyValueError (Plane.cartesian P) := by
  unfold Plane.cartesian; ov
macro_rules | `(tactic| ov_step) => `(tactic| with_reducible apply ov_planeCartesian)
theorem ov_planeProjectPoint (P : Plane K) (p : List K) : OnlyValueError (Plane.projectPoint P p) := by
  unfold Plane.projectPoint; ov
macro_rules | `(tactic| ov_step) => `(tactic| with_reducible apply ov_planeProjectPoint)
theorem ov_planeProjectPoints (P : Plane K) (p : List (List K)) : OnlyValueError (Plane.projectPoints P p) := by
  unfold Plane.projectPoints; ov
macro_rules | `(tactic| ov_step) => `(tactic| with_reducible apply ov_planeProjectPoints)
theorem ov_planeProjectVector (P : Plane K) (p : List K) : OnlyValueError (Plane.projectVector P p) := by
  unfold Plane.projectVector; ov
macro_rules | `(tactic| ov_step) => `(tactic| with_reducible apply ov_planeProjectVector)
theorem ov_planeProjectLine (t : Tol K) (P : Plane K) (l : Line K) : OnlyValueError (Plane.projectLine t P l) := by
  unfold Plane.projectLine; ov
macro_rules | `(tactic| ov_step) => `(tactic| with_reducible apply ov_planeProjectLine)
theorem ov_planeDistancePointSigned (P : Plane K) (p : List K) : OnlyValueError (Plane.distancePointSigned P p) := by
  unfold Plane.distancePointSigned; ov
macro_rules | `(tactic| ov_step) => `(tactic| with_reducible apply ov_planeDistancePointSigned)
theorem ov_planeDistancePointsSigned (P : Plane K) (p : List (List K)) : OnlyValueError (Plane.distancePointsSigned P p) := by
  unfold Plane.distancePointsSigned; ov
macro_rules | `(tactic| ov_step) => `(tactic| with_reducible apply ov_planeDistancePointsSigned)
theorem ov_planeDistancePoint (P : Plane K) (p : List K) : OnlyValueError (Plane.distancePoint P p) := by
  unfold Plane.distancePoint; ov
macro_rules | `(tactic| ov_step) => `(tactic| with_reducible apply ov_planeDistancePoint)
theorem ov_planeDistancePoints (P : Plane K) (p : List (List K)) : OnlyValueError (Plane.distancePoints P p) := by
  unfold Plane.distancePoints; ov
macro_rules | `(tactic| ov_step) => `(tactic| with_reducible apply ov_planeDistancePoints)
theorem ov_planeSidePoint (P : Plane K) (p : List K) : OnlyValueError (Plane.sidePoint P p) := by
  unfold Plane.sidePoint; ov
macro_rules | `(tactic| ov_step) => `(tactic| with_reducible apply ov_planeSidePoint)
theorem ov_planeContainsPoint (t : Tol K) (P : Plane K) (p : List K) : OnlyValueError (Plane.containsPoint t P p) := by
  unfold Plane.containsPoint containsPointFn; ov
macro_rules | `(tactic| ov_step) => `(tactic| with_reducible apply ov_planeContainsPoint)
theorem ov_planeSumSquares (P : Plane K) (p : List (List K)) : OnlyValueError (Plane.sumSquares P p) := by
  unfold Plane.sumSquares sumSquaresFn; ov
macro_rules | `(tactic| ov_step) => `(tactic| with_reducible apply ov_planeSumSquares)
theorem ov_planeIsClose (t : Tol K) (P Q : Plane K) : OnlyValueError (Plane.isClose t P (.plane Q)) := by
  unfold Plane.isClose; ov
macro_rules | `(tactic| ov_step) => `(tactic| with_reducible apply ov_planeIsClose)
theorem ov_planeIntersectLine (t : Tol K) (P : Plane K) (l : Line K) : OnlyValueError (Plane.intersectLine t P l) := by
  unfold Plane.intersectLine; ov
macro_rules | `(tactic| ov_step) => `(tactic| with_reducible apply ov_planeIntersectLine)
theorem ok_newPoints {ps qs : List (List K)} (h : newPoints ps = .ok qs) : qs = ps ∧ ∀ p ∈ ps, p.length = rowDim ps := by
  unfold newPoints at h
  split at h
  · simp at h
  rename_i r rs
  repeat' split at h
  all_goals try simp at h
  rename_i h1 _ _
  subst h
  refine ⟨rfl, fun p hp => ?_⟩
  rcases List.mem_cons.mp hp with rfl | hp
  · rfl
  · simp at h1; exact h1 p hp

theorem ok_new1D {x y : List K} (h : new1D x = .ok y) : y = x := by
  unfold new1D at h
  repeat' split at h
  all_goals simp_all

theorem ok_vsub_length {a b c : List K} (h : vsub a b = .ok c) (hl : a.length = b.length) : c.length = a.length := by
  unfold vsub broadcast2 at h
  rw [if_pos hl] at h
  cases h
  simp [hl]

omit [PyNum K] in
theorem ok_mapM_rows {f : List K → Res (List K)} {k : ℕ} : ∀ {l : List (List K)} {r : List (List K)}, l.mapM f = .ok r →
    (∀ x ∈ l, ∀ y, f x = .ok y → y.length = k) → r.length = l.length ∧ ∀ y ∈ r, y.length = k
  | [], r, h, _ => by
    simp only [List.mapM_nil, pure_ok, Except.ok.injEq] at h
    subst h; simp
  | x :: xs, r, h, hf => by
    simp only [List.mapM_cons, bind_ok_iff, pure_ok, Except.ok.injEq] at h
    obtain ⟨y, hy, ys, hys, rfl⟩ := h
    obtain ⟨h1, h2⟩ := ok_mapM_rows hys fun z hz => hf z (List.mem_cons_of_mem _ hz)
    refine ⟨by simp [h1], ?_⟩
    intro z hz
    rcases List.mem_cons.mp hz with rfl | hz
    · exact hf x List.mem_cons_self _ hy
    · exact h2 z hz

theorem ok_meanCenter {ps C : List (List K)} {c : List K} (h : Pts.meanCenter ps = .ok (C, c))
    (hps : ∀ p ∈ ps, p.length = rowDim ps) : C.length = ps.length ∧ ∀ y ∈ C, y.length = rowDim ps := by
  simp only [Pts.meanCenter, bind_ok_iff, pure_ok, Except.ok.injEq, Prod.mk.injEq] at h
  obtain ⟨c', hc, C', hC, rfl, rfl⟩ := h
  have hl : c'.length = rowDim ps := by
    rw [ok_new1D hc]; simp [Pts.colMeans]
  exact ok_mapM_rows hC fun p hp y hy => by
    rw [ok_vsub_length hy (by rw [hps p hp, hl]), hps p hp]

theorem OnlyValueError.orIndex {r : Res α} (h : OnlyValueError r) : OnlyValueOrIndexError r := fun e he => by
  obtain ⟨m, hm⟩ := h e he; exact ⟨m, .inl hm⟩

theorem OnlyValueOrIndexError.bind {r : Res α} {f : α → Res β} (hr : OnlyValueError r) (hf : ∀ a, OnlyValueOrIndexError (f a)) :
    OnlyValueOrIndexError (r >>= f) := by
  intro e h
  cases r with
  | error e' => cases h; exact hr.orIndex _ rfl
  | ok a => exact hf a e h

theorem ovi_planeBestFit [NumpyExt K] (ps : List (List K)) (t : Option K) (b : Bool) :
    OnlyValueOrIndexError (Plane.bestFit ps t b) := by
  unfold Plane.bestFit
  refine .bind (by ov) fun qs => ?_
  split
  · exact (OnlyValueError.value _).orIndex
  refine .bind (by ov) fun col => ?_
  split
  · exact (OnlyValueError.value _).orIndex
  refine .bind (by ov) fun Cc => ?_
  obtain ⟨C, c⟩ := Cc
  dsimp only
  split
  · intro e he; cases he; exact ⟨_, .inr rfl⟩
  · refine OnlyValueError.orIndex ?_
    ov

/-- `U[:, 2]` exists if NumPy's shapes hold and there are three columns. -/
theorem ov_planeBestFit [NumpyExt K] (ps : List (List K)) (t : Option K) (b : Bool)
    (hU : ∀ A : List (List K), rowDim (NumpyExt.svd b A).1 = if b then A.length else min A.length (rowDim A))
    (h : b = true ∨ 3 ≤ ps.length) : OnlyValueError (Plane.bestFit ps t b) := by
  unfold Plane.bestFit
  refine OnlyValueError.bind' (by ov) fun qs hqs => ?_
  obtain ⟨rfl, hq⟩ := ok_newPoints hqs
  split
  · exact OnlyValueError.value _
  rename_i hd
  refine OnlyValueError.bind (by ov) fun col => ?_
  split
  · exact OnlyValueError.value _
  refine OnlyValueError.bind' (by ov) fun Cc hC => ?_
  obtain ⟨C, c⟩ := Cc
  obtain ⟨h1, h2⟩ := ok_meanCenter hC hq
  dsimp only
  have hne : qs ≠ [] := by rintro rfl; simp [rowDim] at hd
  have hr3 : rowDim C = 3 := by
    have h0 : rowDim qs = 3 := by simpa using hd
    cases C with
    | nil => simp at h1; exact absurd h1.symm (by simpa using hne)
    | cons r rs => rw [← h0]; exact h2 r List.mem_cons_self
  have h3 : (transposeRows C).length = 3 := by simp [transposeRows, hr3]
  have h4 : rowDim (transposeRows C) = qs.length := by
    rw [transposeRows, hr3, ← h1]; simp [rowDim, column, List.range_succ_eq_map]
  have h5 : ¬ rowDim (NumpyExt.svd b (transposeRows C)).1 ≤ 2 := by
    rw [hU, h3, h4]
    rcases h with rfl | h
    · simp
    · split <;> omega
  rw [if_neg h5]
  ov
theorem ov_planeToMesh (P : Plane K) (x y : List K) : OnlyValueError (Plane.toMesh P x y) := by
  unfold Plane.toMesh; ov
macro_rules | `(tactic| ov_step) => `(tactic| with_reducible apply ov_planeToMesh)
theorem ov_planeToPoints (P : Plane K) (x y : List K) : OnlyValueError (Plane.toPoints P x y) := by
  unfold Plane.toPoints; ov
macro_rules | `(tactic| ov_step) => `(tactic| with_reducible apply ov_planeToPoints)
theorem ov_newBaseSphere (p : List K) (r : K) : OnlyValueError (newBaseSphere p r) := by
  unfold newBaseSphere; ov
macro_rules | `(tactic| ov_step) => `(tactic| with_reducible apply ov_newBaseSphere)
theorem ov_baseDistancePoint (c : List K) (r : K) (p : List K) : OnlyValueError (baseDistancePoint c r p) := by
  unfold baseDistancePoint; ov
macro_rules | `(tactic| ov_step) => `(tactic| with_reducible apply ov_baseDistancePoint)
theorem ov_baseProjectPoint (c : List K) (r : K) (p : List K) : OnlyValueError (baseProjectPoint c r p) := by
  unfold baseProjectPoint; ov
macro_rules | `(tactic| ov_step) => `(tactic| with_reducible apply ov_baseProjectPoint)
theorem ov_sphereNew (p : List K) (r : K) : OnlyValueError (Sphere.new p r) := by
  unfold Sphere.new; ov
macro_rules | `(tactic| ov_step) => `(tactic| with_reducible apply ov_sphereNew)
theorem ov_sphereDistancePoint (s : Sphere K) (p : List K) : OnlyValueError (Sphere.distancePoint s p) := by
  unfold Sphere.distancePoint; ov
macro_rules | `(tactic| ov_step) => `(tactic| with_reducible apply ov_sphereDistancePoint)
theorem ov_sphereContainsPoint (t : Tol K) (s : Sphere K) (p : List K) : OnlyValueError (Sphere.containsPoint t s p) := by
  unfold Sphere.containsPoint containsPointFn; ov
macro_rules | `(tactic| ov_step) => `(tactic| with_reducible apply ov_sphereContainsPoint)
theorem ov_sphereProjectPoint (s : Sphere K) (p : List K) : OnlyValueError (Sphere.projectPoint s p) := by
  unfold Sphere.projectPoint; ov
macro_rules | `(tactic| ov_step) => `(tactic| with_reducible apply ov_sphereProjectPoint)
theorem ov_sphereIntersectLine (s : Sphere K) (l : Line K) : OnlyValueError (Sphere.intersectLine s l) := by
  unfold Sphere.intersectLine; ov
macro_rules | `(tactic| ov_step) => `(tactic| with_reducible apply ov_sphereIntersectLine)
theorem ov_sphereBestFit [NumpyExt K] (ps : List (List K)) : OnlyValueError (Sphere.bestFit ps) := by
  unfold Sphere.bestFit; ov
macro_rules | `(tactic| ov_step) => `(tactic| with_reducible apply ov_sphereBestFit)
theorem ov_sphereToPoints (s : Sphere K) (n : Nat) : OnlyValueError (Sphere.toPoints s n) := by
  unfold Sphere.toPoints; ov
macro_rules | `(tactic| ov_step) => `(tactic| with_reducible apply ov_sphereToPoints)
theorem ov_circleNew (p : List K) (r : K) : OnlyValueError (Circle.new p r) := by
  unfold Circle.new; ov
macro_rules | `(tactic| ov_step) => `(tactic| with_reducible apply ov_circleNew)
theorem ov_circleDistancePoint (s : Circle K) (p : List K) : OnlyValueError (Circle.distancePoint s p) := by
  unfold Circle.distancePoint; ov
macro_rules | `(tactic| ov_step) => `(tactic| with_reducible apply ov_circleDistancePoint)
theorem ov_circleContainsPoint (t : Tol K) (s : Circle K) (p : List K) : OnlyValueError (Circle.containsPoint t s p) := by
  unfold Circle.containsPoint containsPointFn; ov
macro_rules | `(tactic| ov_step) => `(tactic| with_reducible apply ov_circleContainsPoint)
theorem ov_circleProjectPoint (s : Circle K) (p : List K) : OnlyValueError (Circle.projectPoint s p) := by
  unfold Circle.projectPoint; ov
macro_rules | `(tactic| ov_step) => `(tactic| with_reducible apply ov_circleProjectPoint)
theorem ov_circleFromPoints [NumpyExt K] (t : Option K) (a b c : List K) : OnlyValueError (Circle.fromPoints t a b c) := by
  unfold Circle.fromPoints; ov
macro_rules | `(tactic| ov_step) => `(tactic| with_reducible apply ov_circleFromPoints)
theorem ov_circleIntersectCircle (s t : Circle K) : OnlyValueError (Circle.intersectCircle s t) := by
  unfold Circle.intersectCircle; ov
macro_rules | `(tactic| ov_step) => `(tactic| with_reducible apply ov_circleIntersectCircle)
theorem ov_circleIntersectLine (s : Circle K) (l : Line K) : OnlyValueError (Circle.intersectLine s l) := by
  unfold Circle.intersectLine; ov
macro_rules | `(tactic| ov_step) => `(tactic| with_reducible apply ov_circleIntersectLine)
theorem ov_circleBestFit [NumpyExt K] (ps : List (List K)) : OnlyValueError (Circle.bestFit ps) := by
  unfold Circle.bestFit; ov
macro_rules | `(tactic| ov_step) => `(tactic| with_reducible apply ov_circleBestFit)
theorem ov_cylinderNew (p v : List K) (r : K) : OnlyValueError (Cylinder.new p v r) := by
  unfold Cylinder.new; ov
macro_rules | `(tactic| ov_step) => `(tactic| with_reducible apply ov_cylinderNew)
theorem ov_cylinderFromPoints (a b : List K) (r : K) : OnlyValueError (Cylinder.fromPoints a b r) := by
  unfold Cylinder.fromPoints; ov
macro_rules | `(tactic| ov_step) => `(tactic| with_reducible apply ov_cylinderFromPoints)
theorem ov_betweenCapPlanes (c : Cylinder K) (p : List K) : OnlyValueError (Cylinder.betweenCapPlanes c p) := by
  unfold Cylinder.betweenCapPlanes; ov
macro_rules | `(tactic| ov_step) => `(tactic| with_reducible apply ov_betweenCapPlanes)
theorem ov_cylinderIsPointWithin [NoOverflow K] (c : Cylinder K) (p : List K) : OnlyValueError (Cylinder.isPointWithin c p) := by
  unfold Cylinder.isPointWithin; ov
macro_rules | `(tactic| ov_step) => `(tactic| with_reducible apply ov_cylinderIsPointWithin)
theorem ov_intersectInfinite [NoOverflow K] (c : Cylinder K) (l : Line K) (n : Option Int) : OnlyValueError (Cylinder.intersectInfinite c l n) := by
  unfold Cylinder.intersectInfinite; ov
  rename_i hne heq
  obtain ⟨m, rfl⟩ := ov_solveQuadratic _ _ _ _ _ heq
  exact absurd rfl (hne m)
macro_rules | `(tactic| ov_step) => `(tactic| with_reducible apply ov_intersectInfinite)
theorem ov_intersectCap [NoOverflow K] (c : Cylinder K) (l : Line K) (P : Plane K) : OnlyValueError (Cylinder.intersectCap c l P) := by
  unfold Cylinder.intersectCap; ov
  rename_i hne heq
  obtain ⟨m, rfl⟩ := ov_planeIntersectLine _ _ _ _ heq
  exact absurd rfl (hne m)
macro_rules | `(tactic| ov_step) => `(tactic| with_reducible apply ov_intersectCap)
theorem ov_intersectCaps [NoOverflow K] (c : Cylinder K) (l : Line K) : OnlyValueError (Cylinder.intersectCaps c l) := by
  unfold Cylinder.intersectCaps; ov
macro_rules | `(tactic| ov_step) => `(tactic| with_reducible apply ov_intersectCaps)
theorem ov_intersectFinite [NoOverflow K] (c : Cylinder K) (l : Line K) (n : Option Int) : OnlyValueError (Cylinder.intersectFinite c l n) := by
  unfold Cylinder.intersectFinite; ov
macro_rules | `(tactic| ov_step) => `(tactic| with_reducible apply ov_intersectFinite)
theorem ov_cylinderIntersectLine [NoOverflow K] (c : Cylinder K) (l : Line K) (n : Option Int) (i : Bool) : OnlyValueError (Cylinder.intersectLine c l n i) := by
  unfold Cylinder.intersectLine; ov
macro_rules | `(tactic| ov_step) => `(tactic| with_reducible apply ov_cylinderIntersectLine)
theorem ov_cylinderToMesh [NoOverflow K] (c : Cylinder K) (n m : Nat) : OnlyValueError (Cylinder.toMesh c n m) := by
  unfold Cylinder.toMesh; ov
macro_rules | `(tactic| ov_step) => `(tactic| with_reducible apply ov_cylinderToMesh)
theorem ov_cylinderToPoints [NoOverflow K] (c : Cylinder K) (n m : Nat) : OnlyValueError (Cylinder.toPoints c n m) := by
  unfold Cylinder.toPoints; ov
macro_rules | `(tactic| ov_step) => `(tactic| with_reducible apply ov_cylinderToPoints)
theorem ov_segmentNew (a b : List K) : OnlyValueError (LineSegment.new a b) := by
  unfold LineSegment.new; ov
macro_rules | `(tactic| ov_step) => `(tactic| with_reducible apply ov_segmentNew)
theorem ov_segmentContainsPoint (t : Tol K) (s : LineSegment K) (p : List K) : OnlyValueError (LineSegment.containsPoint t s p) := by
  unfold LineSegment.containsPoint; ov
macro_rules | `(tactic| ov_step) => `(tactic| with_reducible apply ov_segmentContainsPoint)
theorem ov_segmentIntersect [NumpyExt K] (s t : LineSegment K) (c : Bool) (tol : Tol K) : OnlyValueError (LineSegment.intersectLineSegment s t c tol) := by
  unfold LineSegment.intersectLineSegment; ov
macro_rules | `(tactic| ov_step) => `(tactic| with_reducible apply ov_segmentIntersect)
theorem ov_triangleNew [NumpyExt K] (a b c : List K) : OnlyValueError (Triangle.new a b c) := by
  unfold Triangle.new; ov
macro_rules | `(tactic| ov_step) => `(tactic| with_reducible apply ov_triangleNew)
theorem ov_triangleNormal (t : Triangle K) : OnlyValueError (Triangle.normal t) := by
  unfold Triangle.normal; ov
macro_rules | `(tactic| ov_step) => `(tactic| with_reducible apply ov_triangleNormal)
theorem ov_triangleArea (t : Triangle K) : OnlyValueError (Triangle.area t) := by
  unfold Triangle.area; ov
macro_rules | `(tactic| ov_step) => `(tactic| with_reducible apply ov_triangleArea)
omit [PyNum K] in
theorem ov_trianglePoint (t : Triangle K) (v : String) : OnlyValueError (Triangle.point t v) := by
  unfold Triangle.point; ov
macro_rules | `(tactic| ov_step) => `(tactic| with_reducible apply ov_trianglePoint)
theorem ov_triangleLine (t : Triangle K) (v : String) : OnlyValueError (Triangle.line t v) := by
  unfold Triangle.line; ov
macro_rules | `(tactic| ov_step) => `(tactic| with_reducible apply ov_triangleLine)
theorem ov_triangleLength (t : Triangle K) (v : String) : OnlyValueError (Triangle.length t v) := by
  unfold Triangle.length; ov
macro_rules | `(tactic| ov_step) => `(tactic| with_reducible apply ov_triangleLength)
theorem ov_triangleLengths (t : Triangle K) : OnlyValueError (Triangle.lengths t) := by
  unfold Triangle.lengths; ov
macro_rules | `(tactic| ov_step) => `(tactic| with_reducible apply ov_triangleLengths)
theorem ov_trianglePerimeter (t : Triangle K) : OnlyValueError (Triangle.perimeter t) := by
  unfold Triangle.perimeter; ov
macro_rules | `(tactic| ov_step) => `(tactic| with_reducible apply ov_trianglePerimeter)
theorem ov_triangleAngle (t : Triangle K) (v : String) : OnlyValueError (Triangle.angle t v) := by
  unfold Triangle.angle; ov
macro_rules | `(tactic| ov_step) => `(tactic| with_reducible apply ov_triangleAngle)
theorem ov_triangleCentroid (t : Triangle K) : OnlyValueError (Triangle.centroid t) := by
  unfold Triangle.centroid; ov
macro_rules | `(tactic| ov_step) => `(tactic| with_reducible apply ov_triangleCentroid)
theorem ov_triangleAltitude (t : Triangle K) (v : String) : OnlyValueError (Triangle.altitude t v) := by
  unfold Triangle.altitude; ov
macro_rules | `(tactic| ov_step) => `(tactic| with_reducible apply ov_triangleAltitude)
theorem ov_triangleOrthocenter [NumpyExt K] (t : Triangle K) (c : Bool) (tol : Tol K) : OnlyValueError (Triangle.orthocenter t c tol) := by
  unfold Triangle.orthocenter; ov
macro_rules | `(tactic| ov_step) => `(tactic| with_reducible apply ov_triangleOrthocenter)
theorem ov_triangleClassify (tol : Tol K) (t : Triangle K) : OnlyValueError (Triangle.classify tol t) := by
  unfold Triangle.classify; ov
macro_rules | `(tactic| ov_step) => `(tactic| with_reducible apply ov_triangleClassify)
theorem ov_triangleIsRight (tol : Tol K) (t : Triangle K) : OnlyValueError (Triangle.isRight tol t) := by
  unfold Triangle.isRight; ov
macro_rules | `(tactic| ov_step) => `(tactic| with_reducible apply ov_triangleIsRight)

/-! ### `AttributeError`: methods called on arrays that are not finite -/

theorem OnlyValueError.orAttr {r : Res α} (h : OnlyValueError r) : OnlyValueOrAttributeError r := fun e he => by
  obtain ⟨m, rfl⟩ := h e he; exact ⟨m, .inl rfl⟩

namespace OnlyValueOrAttributeError

theorem bind {r : Res α} {f : α → Res β} (hr : OnlyValueOrAttributeError r) (hf : ∀ a, OnlyValueOrAttributeError (f a)) :
    OnlyValueOrAttributeError (r >>= f) := by
  intro e h
  cases r with
  | error e' => cases h; exact hr _ rfl
  | ok a => exact hf a e h

theorem ite {c : Prop} [Decidable c] {x y : Res α} (hx : OnlyValueOrAttributeError x) (hy : OnlyValueOrAttributeError y) :
    OnlyValueOrAttributeError (if c then x else y) := by
  split
  · exact hx
  · exact hy

theorem mapM {f : α → Res β} (hf : ∀ a, OnlyValueOrAttributeError (f a)) (l : List α) :
    OnlyValueOrAttributeError (l.mapM f) := by
  induction l with
  | nil => exact (OnlyValueError.ok _).orAttr
  | cons x xs ih =>
    rw [List.mapM_cons]
    exact bind (hf x) fun _ => bind ih fun _ => (OnlyValueError.ok _).orAttr

end OnlyValueOrAttributeError

theorem ova_wrapped (m : String) (l : List K) : OnlyValueOrAttributeError (wrapped m l) := by
  unfold wrapped
  split
  · exact (OnlyValueError.ok _).orAttr
  · intro e h; cases h; exact ⟨_, .inr rfl⟩

/-- One step of a proof that a program raises `ValueError` or `AttributeError` only. -/
syntax "ova_step" : tactic
macro_rules
  | `(tactic| ova_step) => `(tactic| first
    | with_reducible apply ova_wrapped
    | (refine OnlyValueError.orAttr ?_; ov; done)
    | with_reducible assumption
    | with_reducible apply OnlyValueOrAttributeError.ite
    | with_reducible refine OnlyValueOrAttributeError.mapM (fun _ => ?_) _
    | with_reducible refine OnlyValueOrAttributeError.bind ?_ fun _ => ?_
    | (split <;> try dsimp only))
macro "ova" : tactic => `(tactic| repeat' ova_step)

theorem ova_lineDistancePoint (l : Line K) (p : List K) : OnlyValueOrAttributeError (Line.distancePoint l p) := by
  unfold Line.distancePoint; ova
macro_rules | `(tactic| ova_step) => `(tactic| with_reducible apply ova_lineDistancePoint)
theorem ova_lineContainsPoint (t : Tol K) (l : Line K) (p : List K) : OnlyValueOrAttributeError (Line.containsPoint t l p) := by
  unfold Line.containsPoint containsPointFn; ova
macro_rules | `(tactic| ova_step) => `(tactic| with_reducible apply ova_lineContainsPoint)
theorem ova_lineSumSquares (l : Line K) (p : List (List K)) : OnlyValueOrAttributeError (Line.sumSquares l p) := by
  unfold Line.sumSquares sumSquaresFn; ova
theorem ova_lineIsClose (t : Tol K) (l m : Line K) : OnlyValueOrAttributeError (Line.isClose t l (.line m)) := by
  unfold Line.isClose; ova
theorem ova_lineDistanceLine [NumpyExt K] (l m : Line K) : OnlyValueOrAttributeError (Line.distanceLine l m) := by
  unfold Line.distanceLine; ova
theorem ova_cylinderIsPointWithin (c : Cylinder K) (p : List K) : OnlyValueOrAttributeError (Cylinder.isPointWithin c p) := by
  unfold Cylinder.isPointWithin; ova
theorem ova_intersectInfinite (c : Cylinder K) (l : Line K) (n : Option Int) :
    OnlyValueOrAttributeError (Cylinder.intersectInfinite c l n) := by
  unfold Cylinder.intersectInfinite
  ova
  rename_i hne heq
  obtain ⟨m, rfl⟩ := ov_solveQuadratic _ _ _ _ _ heq
  exact absurd rfl (hne m)
macro_rules | `(tactic| ova_step) => `(tactic| with_reducible apply ova_intersectInfinite)
theorem ova_intersectCap (c : Cylinder K) (l : Line K) (P : Plane K) : OnlyValueOrAttributeError (Cylinder.intersectCap c l P) := by
  unfold Cylinder.intersectCap
  ova
  rename_i hne heq
  obtain ⟨m, rfl⟩ := ov_planeIntersectLine _ _ _ _ heq
  exact absurd rfl (hne m)
macro_rules | `(tactic| ova_step) => `(tactic| with_reducible apply ova_intersectCap)
theorem ova_intersectCaps (c : Cylinder K) (l : Line K) : OnlyValueOrAttributeError (Cylinder.intersectCaps c l) := by
  unfold Cylinder.intersectCaps; ova
macro_rules | `(tactic| ova_step) => `(tactic| with_reducible apply ova_intersectCaps)
theorem ova_intersectFinite (c : Cylinder K) (l : Line K) (n : Option Int) :
    OnlyValueOrAttributeError (Cylinder.intersectFinite c l n) := by
  unfold Cylinder.intersectFinite; ova
macro_rules | `(tactic| ova_step) => `(tactic| with_reducible apply ova_intersectFinite)
theorem ova_cylinderIntersectLine (c : Cylinder K) (l : Line K) (n : Option Int) (i : Bool) :
    OnlyValueOrAttributeError (Cylinder.intersectLine c l n i) := by
  unfold Cylinder.intersectLine; ova
theorem ova_cylinderToMesh (c : Cylinder K) (n m : Nat) : OnlyValueOrAttributeError (Cylinder.toMesh c n m) := by
  unfold Cylinder.toMesh; ova
macro_rules | `(tactic| ova_step) => `(tactic| with_reducible apply ova_cylinderToMesh)
theorem ova_cylinderToPoints (c : Cylinder K) (n m : Nat) : OnlyValueOrAttributeError (Cylinder.toPoints c n m) := by
  unfold Cylinder.toPoints; ova

end SkSpatial
